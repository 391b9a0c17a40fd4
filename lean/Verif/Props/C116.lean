import Verif.Lemmas.FusedEntry
import Verif.Lemmas.Nearest
import Verif.Lemmas.Rounded
import Verif.Lemmas.History
import Verif.Lemmas.Traced
import Verif.Props.C10
import Verif.Props.C61

/-!
# C116 Contracting the accumulator sums only changes the rounding of accumulators

A compiler that evaluates `accumulator + halting_probabilities*update` with a fused multiply-add gives
the same exceptions, probabilities, residuals, iteration counts and halting decisions.  Entries of
halted elements are still untouched.  In one iteration no entry gets further away from the exact sum.
If the updates are made of -1, 0 and 1 nothing changes at all.
-/

namespace JaxAct
open ACTStates

section General
variable {α : Type} [Arith α]

/-- C116, bookkeeping.  Whatever stands for the fused operation, a history raises the exception it raises
without contraction, or ends with the same probabilities, residuals, iteration counts, pending updates and
defaults, and with accumulators of the same names and structures. -/
theorem C116_same_bookkeeping (fma : DType → α → α → α → α) (c : Controller α) (ops : List (Op α)) :
    (∀ e, runFusedSums fma c ops = .error e ↔ run c ops = .error e) ∧
    (∀ c', runFusedSums fma c ops = .ok c' → ∃ d', run c ops = .ok d' ∧
      c'.probabilities = d'.probabilities ∧ c'.residuals = d'.residuals ∧ c'.iterations = d'.iterations ∧
      c'.haltedBatches = d'.haltedBatches ∧ c'.state.updates = d'.state.updates ∧
      c'.state.defaults = d'.state.defaults ∧ c'.state.epsilon = d'.state.epsilon ∧
      c'.state.depression_constant = d'.state.depression_constant ∧
      c'.accumulators.keys = d'.accumulators.keys ∧
      ∀ n a, c'.accumulators.get? n = some a → ∃ a', d'.accumulators.get? n = some a' ∧
        a.treeStructure = a'.treeStructure) := by
  have hrel := runFusedSums_rel fma ops (Controller.Alike.refl c)
  refine ⟨fun e => ?_, fun c' hc => ?_⟩
  · cases h1 : runFusedSums fma c ops with
    | error e1 =>
      cases h2 : run c ops with
      | error e2 => rw [h1, h2] at hrel; cases hrel; exact Iff.rfl
      | ok d => rw [h1, h2] at hrel; cases hrel
    | ok c1 =>
      cases h2 : run c ops with
      | error e2 => rw [h1, h2] at hrel; cases hrel
      | ok d => simp
  · rw [hc] at hrel
    cases h2 : run c ops with
    | error e2 => rw [h2] at hrel; cases hrel
    | ok d =>
      rw [h2] at hrel
      cases hrel with
      | ok hr =>
        obtain ⟨h3, h4⟩ := hr
        refine ⟨d, rfl, ?_⟩
        obtain ⟨t⟩ := d
        simp only at h3 h4
        generalize t.accumulators = B at h3 h4
        subst h4
        refine ⟨rfl, rfl, rfl, rfl, rfl, rfl, rfl, rfl, h3.keys, fun n a ha => ?_⟩
        rcases h3.get? n with ⟨h5, -⟩ | ⟨a1, a2, h5, h6, h7⟩
        · have : c'.state.accumulators.get? n = some a := ha
          rw [h5] at this; cases this
        · have : c'.state.accumulators.get? n = some a := ha
          rw [h5] at this; cases this
          exact ⟨a2, h6, h7.1⟩

/-- C116, halted elements.  An iteration with contracted sums leaves every accumulator entry of a halted
element as it is. -/
theorem C116_halted_untouched {fma : DType → α → α → α → α} {s : ACTStates α} (hwf : s.WF) {h : Tensor α}
    {c' : Controller α} (ok : Controller.iterateFusedSums fma ⟨s⟩ h = .ok c') {n : String} {k : Nat}
    {i : List Nat} {a : α} (ha : entry? s.accumulators n k i = some a)
    (hb : (Controller.haltedBatches ⟨s⟩).at? (i.take s.probabilities.shape.length) = some true) :
    entry? c'.accumulators n k i = some a := by
  obtain ⟨d', u, p, x, dA, dU, -, -, -, hp, -, -, h7⟩ := Controller.iterateFusedSums_entry hwf ok ha
  obtain ⟨p', hp', hh⟩ := (halted_iff hwf.floating).1 hb
  rw [hp] at hp'
  cases hp'
  unfold Spec.accFused at h7
  rw [if_pos hh] at h7
  exact h7

end General

section Rounded
variable {F : DType → Fmt} [A : Arith ℚ]

/-- C116, accuracy.  One iteration from the same state, with and without contraction, and an accumulator
entry that held `a` and is given the weight `w` and the update `u` (`w` and `u` as they are after conversion
to the dtype in which they are multiplied): the contracted result is at least as close to `a + w * u`. -/
theorem C116_at_least_as_close (hA : A = Arith.rounded F) (hF : ∀ d, (F d).Valid) {s : ACTStates ℚ}
    (hwf : s.WF) {h : Tensor ℚ} {c' d' : Controller ℚ}
    (ok : Controller.iterateFusedSums (Arith.fma F) ⟨s⟩ h = .ok c')
    (ok' : Controller.iterateAct ⟨s⟩ h = .ok d') {n : String} {k : Nat} {i : List Nat} {a : ℚ}
    (ha : entry? s.accumulators n k i = some a)
    (hb : (Controller.haltedBatches ⟨s⟩).at? (i.take s.probabilities.shape.length) = some false) :
    ∃ p x u v v' dU, s.probabilities.at? (i.take s.probabilities.shape.length) = some p ∧
      h.at? (i.take s.probabilities.shape.length) = some x ∧ entry? s.updates n k i = some u ∧
      entry? c'.accumulators n k i = some v ∧ entry? d'.accumulators n k i = some v' ∧
      let d := s.probabilities.dtype
      let dM := DType.promote d dU
      let w := convS d dM (Spec.weight d s.epsilon s.depression_constant p (convS h.dtype d x))
      |v - (a + w * convS dU dM u)| ≤ |v' - (a + w * convS dU dM u)| := by
  obtain ⟨d1, u, p, x, dA, dU, h1, hfl, h2, h3, h4, h5, h6⟩ := Controller.iterateFusedSums_entry hwf ok ha
  rw [ok'] at h1
  cases h1
  obtain ⟨p', hp', hh⟩ := (halted_iff hwf.floating).1 hb
  rw [h3] at hp'
  cases hp'
  unfold Spec.accFused at h6
  unfold Spec.accStep at h5
  rw [if_neg (by rw [hh]; simp)] at h5 h6
  refine ⟨p, x, u, _, _, dU, h3, h4, h2, h6, h5, ?_⟩
  simp only
  split
  · rename_i e
    generalize convS _ (DType.promote s.probabilities.dtype dU) (Spec.weight _ _ _ _ _ : ℚ) = w
    generalize convS dU (DType.promote s.probabilities.dtype dU) u = y
    rw [e, Tensor.convS_self]
    subst hA
    show |Arith.roundTo F dA (w * y + a) - _| ≤ |Arith.roundTo F dA (a + Arith.roundTo F dA (w * y)) - _|
    rw [Spec.roundTo_float hfl, Spec.roundTo_float hfl, add_comm (w * y) a]
    exact Fmt.abs_rnd_sub_le_of_rep (hF dA).1 (Fmt.rnd_rep (hF dA).1 _)
  · exact le_refl _

end Rounded

section Equal
variable {α : Type}

theorem Arr.bmap2_eq_map {β γ δ : Type} (f : β → γ → δ) (a : Arr β) (b : Arr γ) :
    Arr.bmap2 f a b = (Arr.bmap2 Prod.mk a b).map (Arr.map fun p => f p.1 p.2) := by
  unfold Arr.bmap2
  split <;> rfl

theorem Arr.bmap2_map_right {β γ γ' δ : Type} (f : β → γ' → δ) (g : γ → γ') (a : Arr β) (b : Arr γ) :
    Arr.bmap2 f a (b.map g) = Arr.bmap2 (fun x y => f x (g y)) a b := by
  unfold Arr.bmap2
  simp only [Arr.map]

theorem Arr.bmap2_congr_right {β γ δ : Type} {f f' : β → γ → δ} {a : Arr β} {b : Arr γ}
    (h : ∀ i x y, b.at? i = some y → f x y = f' x y) : Arr.bmap2 f a b = Arr.bmap2 f' a b := by
  unfold Arr.bmap2
  split
  · rename_i r hr
    congr 2
    funext i hi
    refine h (Arr.bIdx b.shape i) _ _ ?_
    rw [Arr.at?, dif_pos (Arr.bIdx_inB_right hr hi)]
  · rfl

variable [Arith α]

theorem fusedSum_eq {fma : DType → α → α → α → α} {a w u : Tensor α}
    (hf : ∀ r i x y z, Arr.bshape w.shape u.shape = some r → InB r i →
      w.at? (Arr.bIdx w.shape i) = some x → u.at? (Arr.bIdx u.shape i) = some y →
      let d := DType.promote w.dtype u.dtype
      let x' := convS w.dtype d x
      let y' := convS u.dtype d y
      fma d x' y' z = Arith.add d z (Arith.mul d x' y')) :
    fusedSum fma a w u = (do let m ← Tensor.binop Arith.mul w u; Tensor.binop Arith.add a m) := by
  unfold fusedSum
  simp only
  split
  · rename_i hd
    unfold Tensor.binop
    simp only
    generalize hdd : DType.promote w.dtype u.dtype = d at *
    rw [Arr.bmap2_eq_map (Arith.mul d)]
    cases h1 : Arr.bmap2 Prod.mk (Tensor.conv d w).arr (Tensor.conv d u).arr with
    | none => rfl
    | some xy =>
      simp only [Option.map_some, ok_bind]
      have e0 : (Tensor.conv d (⟨d, xy.map fun p => Arith.mul d p.1 p.2⟩ : Tensor α)) =
          ⟨d, xy.map fun p => Arith.mul d p.1 p.2⟩ := by unfold Tensor.conv; rw [if_pos rfl]
      rw [hd, e0]
      simp only
      rw [Arr.bmap2_map_right]
      rw [Arr.bmap2_congr_right (f' := fun z p => Arith.add d z (Arith.mul d p.1 p.2))]
      · cases Arr.bmap2 (fun z p => Arith.add d z (Arith.mul d p.1 p.2)) (Tensor.conv d a).arr xy <;> rfl
      · intro i z p hp
        have hi : InB xy.shape i := Arr.at?_isSome.1 (by rw [hp]; rfl)
        have e1 := Arr.at?_bmap2 h1 hi
        rw [hp] at e1
        simp only [Tensor.at?_conv] at e1
        cases hx : w.arr.at? (Arr.bIdx (Tensor.conv d w).arr.shape i) with
        | none => rw [hx] at e1; cases e1
        | some x =>
          cases hy : u.arr.at? (Arr.bIdx (Tensor.conv d u).arr.shape i) with
          | none => rw [hx, hy] at e1; cases e1
          | some y =>
            rw [hx, hy] at e1
            simp only [Option.map_some, Option.bind_eq_bind, Option.bind_some, Option.pure_def,
              Option.some.injEq] at e1
            subst e1
            rw [Tensor.conv_arr_shape] at hx hy
            exact hf _ i x y z (by simpa using Arr.bmap2_shape h1) hi hx hy
  · rfl

namespace Controller
open Utils

theorem updateFused_eq {fma : DType → α → α → α → α} {c : Controller α} {ta : Tensor α} {lu : Leaf α}
    {hh : Tensor α} (hs : hh.shape = c.probabilities.shape) (hb : c.probabilities.shape <+: ta.shape)
    (hf : ∀ tu, lu = .tensor tu → ∀ i j x y z, hh.at? i = some x → tu.at? j = some y →
      let d := DType.promote hh.dtype tu.dtype
      let x' := convS hh.dtype d x
      let y' := convS tu.dtype d y
      fma d x' y' z = Arith.add d z (Arith.mul d x' y')) :
    c.updateFused fma (.tensor ta) lu hh = c.updateAccumulator (.tensor ta) lu hh := by
  cases lu with
  | obj o =>
    unfold updateFused updateAccumulator
    simp only [Leaf.asTensor, raise, ok_bind, error_bind]
  | tensor tu =>
    unfold updateFused updateAccumulator
    simp only [Leaf.asTensor, ok_bind]
    split
    · rfl
    · rename_i hsu
      rw [not_not] at hsu
      obtain ⟨r, hr⟩ := hb
      obtain ⟨hx, h1, h1d, h1b, h1a⟩ := setupLeftBroadcastT_prefix hh r
      rw [hs, hr] at h1 h1b h1a
      rw [h1, ok_bind, ok_bind]
      rw [fusedSum_eq (w := hx) (u := tu) (a := ta)]
      · simp only [bind_assoc]
      · intro q i x y z hq hi hxi hyi
        rw [← hsu, h1b] at hq
        cases hq
        rw [h1a i hi] at hxi
        have := hf tu rfl _ _ x y z hxi hyi
        simp only at this ⊢
        rw [h1d]
        exact this

theorem commitOneFused_eq {fma : DType → α → α → α → α} {c : Controller α} {hh : Tensor α}
    {a u : Dict (PyTree (Leaf α))} {n : String}
    (hf : ∀ ta tu, a.get? n = some ta → u.get? n = some tu → ∀ la ∈ ta.treeLeaves, ∀ lu ∈ tu.treeLeaves,
      c.updateFused fma la lu hh = c.updateAccumulator la lu hh) :
    c.commitOneFused fma hh a u n = c.commitOne hh a u n := by
  unfold commitOneFused commitOne Dict.getItem
  cases ha : a.get? n with
  | none => simp only [raise, error_bind]
  | some ta =>
    cases hu : u.get? n with
    | none => simp only [raise, ok_bind, error_bind]
    | some tu =>
      simp only [ok_bind]
      split
      · rfl
      · exact mergePytrees_congr (hf ta tu ha hu)

theorem commitLoopFused_eq {fma : DType → α → α → α → α} {c : Controller α} {hh : Tensor α} :
    ∀ (names : List String) {a u : Dict (PyTree (Leaf α))}, names.Nodup →
    (∀ n ∈ names, c.commitOneFused fma hh a u n = c.commitOne hh a u n) →
    c.commitLoopFused fma hh names a u = c.commitLoop hh names a u
  | [], _, _, _, _ => rfl
  | n :: names, a, u, hnd, h => by
    rw [List.nodup_cons] at hnd
    unfold commitLoopFused commitLoop
    rw [h n (by simp)]
    cases wrapRuntime (c.commitOne hh a u n) with
    | error e => rfl
    | ok new =>
      refine commitLoopFused_eq names hnd.2 fun m hm => ?_
      have hne : n ≠ m := by rintro rfl; exact hnd.1 hm
      rw [commitOneFused_congr fma c hh (a' := a) (u' := u) (Dict.get?_set_ne _ hne _)
        (Dict.get?_set_ne _ hne _), commitOne_congr c hh (a' := a) (u' := u) (Dict.get?_set_ne _ hne _)
        (Dict.get?_set_ne _ hne _)]
      exact h m (by simp [hm])

end Controller
end Equal
end JaxAct

namespace JaxAct
open ACTStates

section Unit
variable {F : DType → Fmt} [A : Arith ℚ]

/-- Every entry of every array in the tree is 0, 1 or -1. -/
def UnitTree (u : PyTree (Leaf ℚ)) : Prop :=
  ∀ t, Leaf.tensor t ∈ u.treeLeaves → ∀ i y, t.at? i = some y → y = 0 ∨ y = 1 ∨ y = -1

theorem fma_unit (hA : A = Arith.rounded F) (hF : ∀ d, (F d).Valid) {dW dU : DType} {x y z : ℚ}
    (hd : dW.isFloating = true) (hx : (F dW).Rep x) (hy : y = 0 ∨ y = 1 ∨ y = -1) :
    let d := DType.promote dW dU
    let x' := convS dW d x
    let y' := convS dU d y
    Arith.fma F d x' y' z = Arith.add d z (Arith.mul d x' y') := by
  simp only
  have hfl : (DType.promote dW dU).isFloating = true := by
    cases dW <;> cases dU <;> first | rfl | cases hd
  generalize DType.promote dW dU = d at hfl
  have hv := hF d
  have h1 : (F d).Rep (convS dW d x) := by
    unfold convS
    split
    · rename_i e; rw [← e]; exact hx
    · subst hA
      show (F d).Rep (Arith.roundTo F d x)
      rw [Spec.roundTo_float hfl]; exact Fmt.rnd_rep hv.1 x
  have hy' : (F d).rnd y = y := by
    rcases hy with rfl | rfl | rfl
    · exact Fmt.rnd_zero _
    · exact Fmt.rnd_one hv
    · rw [Fmt.rnd_neg, Fmt.rnd_one hv]
  have h2 : convS dU d y = y := by
    unfold convS
    split
    · rfl
    · subst hA
      show Arith.roundTo F d y = y
      rw [Spec.roundTo_float hfl]; exact hy'
  rw [h2]
  generalize convS dW d x = w at h1
  have h3 : (F d).rnd (w * y) = w * y := by
    rcases hy with rfl | rfl | rfl
    · rw [mul_zero]; exact Fmt.rnd_zero _
    · rw [mul_one]; exact h1
    · rw [mul_neg, mul_one, Fmt.rnd_neg]; exact congrArg _ h1
  subst hA
  show Arith.roundTo F d (w * y + z) = Arith.roundTo F d (z + Arith.roundTo F d (w * y))
  rw [Spec.roundTo_float hfl, Spec.roundTo_float hfl, Spec.roundTo_float hfl, h3, add_comm]

theorem iterateFusedSums_unit (hA : A = Arith.rounded F) (hF : ∀ d, (F d).Valid) {s : ACTStates ℚ}
    (hwf : s.WF) (hu : ∀ n u, s.updates.get? n = some u → UnitTree u) (h : Tensor ℚ) :
    Controller.iterateFusedSums (Arith.fma F) ⟨s⟩ h = Controller.iterateAct ⟨s⟩ h := by
  unfold Controller.iterateFusedSums Controller.iterateAct
  split
  · rfl
  rename_i hs
  rw [not_not] at hs
  simp only
  cases hpp : Controller.processProbabilities ⟨s⟩ h.clip01 with
  | error e => simp only [error_bind]
  | ok y =>
    obtain ⟨hh, r, p⟩ := y
    simp only [ok_bind]
    have hdt := Controller.processProbabilities_dtype _ _ hpp
    simp only [Tensor.clip01_dtype, DType.withFloat_withFloat] at hdt
    obtain ⟨hh', r', p', hpp', hhs, hhd, -, -, -, -, hcell⟩ := Controller.processProbabilities_of
      (⟨s⟩ : Controller ℚ) h.clip01 hwf.floating hwf.res_shape hwf.res_dtype
      (by rw [Tensor.clip01_shape]; exact hs) (by rw [Tensor.clip01_dtype]; exact hdt.2.1)
    rw [hpp'] at hpp
    cases hpp
    have hrep : ∀ i x, hh.at? i = some x → (F hh.dtype).Rep x := by
      intro i x hx
      obtain ⟨p1, hp1⟩ := Controller.at?_some_of_shape (b := s.probabilities) hhs.symm hx
      obtain ⟨r1, hr1⟩ := Controller.at?_some_of_shape (b := s.residuals) hwf.res_shape hp1
      obtain ⟨x1, hx1⟩ := Controller.at?_some_of_shape (b := h.clip01)
        (show h.clip01.shape = s.probabilities.shape by rw [Tensor.clip01_shape]; exact hs) hp1
      have := (hcell i x1 p1 r1 hx1 hp1 hr1).1
      rw [hx] at this
      have e := Option.some.inj this
      rw [hhd, e]
      have hv := (hF s.probabilities.dtype).1
      subst hA
      split
      · show (F s.probabilities.dtype).Rep (Arith.roundTo F s.probabilities.dtype _)
        rw [Spec.roundTo_float hwf.floating]; exact Fmt.rnd_rep hv _
      · show (F s.probabilities.dtype).Rep (Arith.roundTo F s.probabilities.dtype _)
        rw [Spec.roundTo_float hwf.floating]; exact Fmt.rnd_rep hv _
    have hloop : Controller.commitLoopFused (Arith.fma F) ⟨s⟩ hh (Controller.accumulators ⟨s⟩).keys
        (Controller.accumulators ⟨s⟩) s.updates = Controller.commitLoop ⟨s⟩ hh
        (Controller.accumulators ⟨s⟩).keys (Controller.accumulators ⟨s⟩) s.updates := ?_
    · rw [hloop]
    refine Controller.commitLoopFused_eq _ hwf.acc_keys fun n hn => ?_
    refine Controller.commitOneFused_eq fun ta tu hta htu la hla lu hlu => ?_
    obtain ⟨tl, rfl, -, hlb⟩ := hwf.batched n ta hta la hla
    refine Controller.updateFused_eq hhs hlb ?_
    rintro t rfl i j x y z hx hy
    exact fma_unit hA hF (by rw [hhd]; exact hwf.floating) (hrep i x hx) (hu n tu htu t hlu j y hy)

theorem runFusedSums_unit (hA : A = Arith.rounded F) (hF : ∀ d, (F d).Valid) : ∀ (ops : List (Op ℚ))
    {s : ACTStates ℚ}, s.WF → (∀ n u, s.updates.get? n = some u → UnitTree u) →
    (∀ n u, Op.cache n u ∈ ops → UnitTree u) →
    runFusedSums (Arith.fma F) ⟨s⟩ ops = run ⟨s⟩ ops
  | [], _, _, _, _ => rfl
  | op :: ops, s, hwf, hs, hu => by
    have e : op.callFusedSums (Arith.fma F) ⟨s⟩ = op.call ⟨s⟩ := by
      cases op with
      | iterate h => exact iterateFusedSums_unit hA hF hwf hs h
      | _ => rfl
    unfold runFusedSums run
    rw [e]
    cases hc : op.call ⟨s⟩ with
    | error e => simp only [error_bind]
    | ok c =>
      have hwf' := call_wf hwf hc
      refine runFusedSums_unit hA hF ops hwf' ?_ fun n u h => hu n u (List.mem_cons_of_mem _ h)
      cases op with
      | iterate h =>
        have st := Controller.iterateAct_ok hwf hc
        intro n u hn
        have : n ∈ s.accumulators.keys := by
          rw [← st.akeys]
          exact (hwf'.upd_iff n).1 (Dict.mem_keys_iff.2 ⟨u, hn⟩)
        rw [st.cleared n this] at hn
        cases hn
        intro t ht
        cases ht
      | cache m x =>
        intro n u hn
        rw [((C10_cache_success ⟨s⟩ m x).2 c hc).1 n] at hn
        split at hn
        · cases hn
          exact hu m x (by simp)
        · exact hs n u hn
      | reset =>
        intro n u hn
        rw [(Controller.resetBatches_ok hwf hc).updates] at hn
        exact hs n u hn

/-- C116, updates of -1, 0 and 1.  If every update that is cached consists of these numbers (counters,
masks, one-hot vectors), contracting the sums changes nothing in a history: the same states, the same
exceptions. -/
theorem C116_unit_updates (hA : A = Arith.rounded F) (hF : ∀ d, (F d).Valid) {s : ACTStates ℚ} (hwf : s.WF)
    (hidle : ∀ n u, s.updates.get? n = some u → u = .none) {ops : List (Op ℚ)}
    (hu : ∀ n u t i y, Op.cache n u ∈ ops → Leaf.tensor t ∈ u.treeLeaves → t.at? i = some y →
      y = 0 ∨ y = 1 ∨ y = -1) :
    runFusedSums (Arith.fma F) ⟨s⟩ ops = run ⟨s⟩ ops := by
  refine runFusedSums_unit hA hF ops hwf (fun n u hn => ?_) fun n u hm t ht i y hy => hu n u t i y hm ht hy
  rw [hidle n u hn]
  intro t ht
  cases ht

end Unit

section Witness
open Fixtures
attribute [local instance] ieee

/-- The float32 number nearest to `x`. -/
private def near (x : ℚ) : ℚ := (DType.fmt .f32).rnd x

/-- Weights 0.4 and 0.22, updates 2.3 and 0.8. -/
private def pairStory : List (Op ℚ) :=
  roundOps [sround [near (4/10), 0] (near (23/10)) 0, sround [near (22/100), 0] (near (8/10)) 0]

/-- What the entry would be without rounding. -/
private def exactSum : ℚ := near (4/10) * near (23/10) + near (22/100) * near (8/10)

/-- C116, several iterations.  Over more than one iteration the contracted entry can be the less accurate
one: the first rounding error is no longer compensated by the second. -/
theorem C116_not_over_histories :
    simple.WF ∧ ∃ v v', obs (runFusedSums (Arith.fma DType.fmt) ⟨simple⟩ pairStory)
      (fun c => entry? c.state.accumulators "out" 0 [0, 0]) = some v ∧
    obs (run ⟨simple⟩ pairStory) (fun c => entry? c.state.accumulators "out" 0 [0, 0]) = some v' ∧
    |v' - exactSum| < |v - exactSum| := by
  refine ⟨simple_wf, 9193915 / 8388608, 4596957 / 4194304, ?_, ?_, ?_⟩ <;> decide +kernel

/-- The accumulator holds 0.1, the update 2.8 is pending. -/
private def loaded : ACTStates ℚ :=
  { simple with
    accumulators := [("out", bare (col (near (1/10)) 0))]
    updates := [("out", bare (col (near (28/10)) 0))] }

/-- Not vacuous: with the weight 0.05 the contracted sum is strictly closer, and the rest is the same. -/
example :
    obs (Controller.iterateFusedSums (Arith.fma DType.fmt) ⟨loaded⟩ (vec [near (5/100), 0]))
      (fun c => (entry? c.state.accumulators "out" 0 [0, 0]).bind fun v =>
        obs (Controller.iterateAct ⟨loaded⟩ (vec [near (5/100), 0])) fun d =>
          (entry? d.state.accumulators "out" 0 [0, 0]).map fun v' =>
            decide (|v - (near (1/10) + near (5/100) * near (28/10))| <
              |v' - (near (1/10) + near (5/100) * near (28/10))|)) = some true := by decide +kernel

theorem col_entry {x y z : ℚ} {i : List Nat} (h : (col x y).at? i = some z) : z = x ∨ z = y := by
  have h' : (if InB [2, 1] i then some (if i.headD 0 = 0 then x else y) else none) = some z := h
  by_cases hi : InB [2, 1] i
  · rw [if_pos hi] at h'
    have e := Option.some.inj h'
    by_cases h0 : i.headD 0 = 0
    · rw [if_pos h0] at e; exact .inl e.symm
    · rw [if_neg h0] at e; exact .inr e.symm
  · rw [if_neg hi] at h'; cases h'

/-- Not vacuous: an accumulator that counts. -/
example : runFusedSums (Arith.fma DType.fmt) ⟨simple⟩
      (roundOps [sround [near (33/100), 1/2] 1 (-1), sround [near (87/100), 1/8] 1 0]) =
    run ⟨simple⟩ (roundOps [sround [near (33/100), 1/2] 1 (-1), sround [near (87/100), 1/8] 1 0]) ∧
    succeeds (run ⟨simple⟩ (roundOps [sround [near (33/100), 1/2] 1 (-1), sround [near (87/100), 1/8] 1 0]))
      = true := by
  refine ⟨C116_unit_updates rfl (fun d => by cases d <;> decide) simple_wf ?_ ?_, by decide +kernel⟩
  · intro n u hn
    simp only [simple, Dict.get?] at hn
    split at hn
    · exact (Option.some.inj hn).symm
    · cases hn
  · intro n u t i y hm ht hy
    have : u = bare (col 1 (-1)) ∨ u = bare (col 1 0) := by
      simp [roundOps, Round.ops, sround] at hm
      rcases hm with ⟨-, h⟩ | ⟨-, h⟩
      · exact .inl h
      · exact .inr h
    rcases this with rfl | rfl
    · have : t = col 1 (-1) := by simpa [bare, PyTree.treeLeaves, PyTree.canon, PyTree.leaves] using ht
      subst this
      rcases col_entry hy with rfl | rfl <;> simp
    · have : t = col 1 0 := by simpa [bare, PyTree.treeLeaves, PyTree.canon, PyTree.leaves] using ht
      subst this
      rcases col_entry hy with rfl | rfl <;> simp

end Witness
end JaxAct
