import Verif.Model.Controller
import Verif.Spec.Step
import Verif.Spec.WellFormed
import Verif.Lemmas.Utils
import Verif.Lemmas.Dict

/-! # Lemmas on `iterate_act`: pointwise refinement of the scalar step -/

namespace JaxAct.Controller
open Utils
variable {α : Type} [Arith α]

@[simp] theorem haltedBatches_shape (c : Controller α) :
    c.haltedBatches.shape = c.probabilities.shape := by
  simp [haltedBatches]

theorem at?_haltedBatches (c : Controller α) (hf : c.probabilities.dtype.isFloating = true)
    (b : List Nat) : c.haltedBatches.at? b =
      (c.probabilities.at? b).map (Spec.isHalted c.probabilities.dtype c.state.epsilon) := by
  unfold haltedBatches
  rw [Tensor.at?_gtFloat, DType.withFloat_of hf]
  simp only [Tensor.convS_self]
  rfl

theorem andNot_same {a b : Arr Bool} (hs : a.shape = b.shape) :
    ∃ r, andNot a b = .ok r ∧ r.shape = a.shape ∧
      ∀ i, r.at? i = (do let x ← a.at? i; let y ← b.at? i; pure (x && !y)) := by
  obtain ⟨r, h1, h2, h3⟩ := Arr.bmap2_same (f := fun x y => x && !y) hs
  exact ⟨r, by simp [andNot, h1], h2, h3⟩

/-- `_process_probabilities` on a batch-shaped, clipped tensor of the right dtype. -/
theorem processProbabilities_of (c : Controller α) (h : Tensor α)
    (hf : c.probabilities.dtype.isFloating = true)
    (hrs : c.residuals.shape = c.probabilities.shape)
    (hrd : c.residuals.dtype = c.probabilities.dtype)
    (hs : h.shape = c.probabilities.shape) (hd : h.dtype = c.probabilities.dtype) :
    ∃ hh r p, c.processProbabilities h = .ok (hh, r, p) ∧
      hh.shape = c.probabilities.shape ∧ hh.dtype = c.probabilities.dtype ∧
      r.shape = c.probabilities.shape ∧ r.dtype = c.probabilities.dtype ∧
      p.shape = c.probabilities.shape ∧ p.dtype = c.probabilities.dtype ∧
      ∀ b x q s, h.at? b = some x → c.probabilities.at? b = some q → c.residuals.at? b = some s →
        let d := c.probabilities.dtype
        let raw := Arith.mul d (Arith.cast d c.depressionConstant) x
        let will := Arith.lt (Spec.threshold d c.state.epsilon) (Arith.add d raw q)
        let w := if will then Arith.sub d Arith.one q else raw
        hh.at? b = some w ∧
        r.at? b = some (if will && !Spec.isHalted d c.state.epsilon q then Arith.sub d Arith.one q
          else s) ∧
        p.at? b = some (Arith.add d q w) := by
  have hwf : c.probabilities.dtype.withFloat = c.probabilities.dtype := DType.withFloat_of hf
  have hwi : c.probabilities.dtype.withInt = c.probabilities.dtype := DType.withInt_of hf
  set h1 := Tensor.floatMul c.depressionConstant h with hh1
  have h1s : h1.shape = c.probabilities.shape := by rw [hh1, Tensor.floatMul_shape, hs]
  have h1d : h1.dtype = c.probabilities.dtype := by rw [hh1, Tensor.floatMul_dtype, hd, hwf]
  obtain ⟨tot, ht, htd, hts, hta⟩ := Tensor.binop_same (op := Arith.add) h1s
  rw [h1s] at hts
  have htd' : tot.dtype = c.probabilities.dtype := by rw [htd, h1d, DType.promote_self]
  set will := tot.gtFloat c.haltThreshold with hwill
  have hws : will.shape = c.probabilities.shape := by rw [hwill, Tensor.gtFloat_shape, hts]
  obtain ⟨newly, hn, hns, hna⟩ := andNot_same (a := will) (b := c.haltedBatches)
    (by rw [hws, haltedBatches_shape])
  rw [hws] at hns
  set raw := c.probabilities.oneSub with hraw
  have hraws : raw.shape = c.probabilities.shape := Tensor.oneSub_shape _
  have hrawd : raw.dtype = c.probabilities.dtype := by rw [hraw, Tensor.oneSub_dtype, hwi]
  obtain ⟨r, hr⟩ := Tensor.select_of (p := newly) (a := raw) (b := c.residuals)
    (by rw [hraws, hrs]) (by rw [hrawd, hrd]) (by rw [hns, hraws])
  obtain ⟨-, -, hrd', hrs', -, hra⟩ := Tensor.select_ok hr
  obtain ⟨hh, hhh⟩ := Tensor.select_of (p := will) (a := raw) (b := h1)
    (by rw [hraws, h1s]) (by rw [hrawd, h1d]) (by rw [hws, hraws])
  obtain ⟨-, -, hhd, hhs, -, hha⟩ := Tensor.select_ok hhh
  obtain ⟨p, hp, hpd, hps, hpa⟩ := Tensor.binop_same (op := Arith.add) (a := c.probabilities) (b := hh)
    (by rw [hhs, hraws])
  refine ⟨hh, r, p, ?_, by rw [hhs, hraws], by rw [hhd, hrawd], by rw [hrs', hraws],
    by rw [hrd', hrawd], hps, by rw [hpd, hhd, hrawd, DType.promote_self], ?_⟩
  · unfold processProbabilities
    simp only [← hh1, ht, ok_bind, ← hwill, hn, ← hraw, hr, hhh, hp, pure_eq_ok]
  · intro b x q s hx hq hsb
    simp only
    have e1 : h1.at? b = some (Arith.mul c.probabilities.dtype
        (Arith.cast c.probabilities.dtype c.depressionConstant) x) := by
      rw [hh1, Tensor.at?_floatMul, hx, hd, hwf]; simp
    have e2 : raw.at? b = some (Arith.sub c.probabilities.dtype Arith.one q) := by
      rw [hraw, Tensor.at?_oneSub, hq, hwi]; simp
    have e3 := hta b
    rw [e1, hq, htd', h1d] at e3
    simp only [Option.bind_eq_bind, Option.bind_some, Tensor.convS_self, Option.pure_def] at e3
    have e4 : will.at? b = some (Arith.lt (Spec.threshold c.probabilities.dtype c.state.epsilon)
        (Arith.add c.probabilities.dtype (Arith.mul c.probabilities.dtype
        (Arith.cast c.probabilities.dtype c.depressionConstant) x) q)) := by
      rw [hwill, Tensor.at?_gtFloat, e3, htd', hwf]
      simp [Spec.threshold, haltThreshold]
    have e5 := hna b
    rw [e4, at?_haltedBatches c hf, hq] at e5
    simp only [Option.bind_eq_bind, Option.bind_some, Option.map_some, Option.pure_def] at e5
    have e6 := hha (by rw [hws, hraws]) b
    rw [e4, e2, e1] at e6
    simp only [Option.bind_eq_bind, Option.bind_some] at e6
    have e7 := hra (by rw [hns, hraws]) b
    rw [e5, e2, hsb] at e7
    simp only [Option.bind_eq_bind, Option.bind_some] at e7
    have e6' : hh.at? b = some (if Arith.lt (Spec.threshold c.probabilities.dtype c.state.epsilon)
        (Arith.add c.probabilities.dtype (Arith.mul c.probabilities.dtype
        (Arith.cast c.probabilities.dtype c.depressionConstant) x) q) then
        Arith.sub c.probabilities.dtype Arith.one q else Arith.mul c.probabilities.dtype
        (Arith.cast c.probabilities.dtype c.depressionConstant) x) := by
      rw [e6]; split <;> rfl
    refine ⟨e6', ?_, ?_⟩
    · rw [e7]; split <;> rfl
    · have e8 := hpa b
      rw [hq, e6', hpd, hhd, hrawd, DType.promote_self] at e8
      simpa using e8

/-- Success of `_process_probabilities` forces the dtypes. -/
theorem processProbabilities_dtype (c : Controller α) (h : Tensor α) {x}
    (ok : c.processProbabilities h = .ok x) :
    c.probabilities.dtype.isFloating = true ∧ h.dtype.withFloat = c.probabilities.dtype ∧
    c.residuals.dtype = c.probabilities.dtype ∧ c.residuals.shape = c.probabilities.shape := by
  unfold processProbabilities at ok
  simp only [bind_ok] at ok
  obtain ⟨tot, -, newly, -, r, hr, hh, hhh, -⟩ := ok
  obtain ⟨a1, a2, -⟩ := Tensor.select_ok hr
  obtain ⟨-, b2, -⟩ := Tensor.select_ok hhh
  simp only [Tensor.oneSub_dtype, Tensor.floatMul_dtype, Tensor.oneSub_shape] at a1 a2 b2
  obtain ⟨h1, h2⟩ := DType.floating_of_withInt_eq b2
  exact ⟨h1, h2, by rw [← a2, DType.withInt_of h1], a1.symm⟩

theorem processProbabilities_error (c : Controller α) (h : Tensor α) {e}
    (hs : h.shape = c.probabilities.shape)
    (err : c.processProbabilities h = .error e) : e = .typeError := by
  unfold processProbabilities at err
  simp only at err
  obtain ⟨tot, ht, htd, hts, hta⟩ := Tensor.binop_same (op := Arith.add)
    (a := Tensor.floatMul c.depressionConstant h) (b := c.probabilities) (by simpa using hs)
  rw [ht, ok_bind] at err
  obtain ⟨newly, hn, hns, hna⟩ := andNot_same (a := tot.gtFloat c.haltThreshold)
    (b := c.haltedBatches) (by rw [haltedBatches_shape, Tensor.gtFloat_shape, hts]; simpa using hs)
  rw [hn, ok_bind] at err
  rcases bind_error.1 err with h1 | ⟨r, hr, h1⟩
  · exact Tensor.select_error h1
  rcases bind_error.1 h1 with h2 | ⟨hh, hhh, h2⟩
  · exact Tensor.select_error h2
  obtain ⟨-, -, -, hhs, -, -⟩ := Tensor.select_ok hhh
  obtain ⟨p, hp, -⟩ := Tensor.binop_same (op := Arith.add) (a := c.probabilities) (b := hh)
    (by rw [hhs]; simp)
  rw [hp] at h2
  cases h2

/-- `_update_accumulator` on a leaf whose shape starts with the batch shape. -/
theorem updateAccumulator_spec (c : Controller α) (ta tu : Tensor α) (hh : Tensor α)
    (hf : c.probabilities.dtype.isFloating = true)
    (hs : hh.shape = c.probabilities.shape) (hd : hh.dtype = c.probabilities.dtype)
    (hb : c.probabilities.shape <+: ta.shape) (hsu : tu.shape = ta.shape)
    (hdt : DType.promote ta.dtype (DType.promote c.probabilities.dtype tu.dtype) = ta.dtype) :
    ∃ ta', c.updateAccumulator (.tensor ta) (.tensor tu) hh = .ok (.tensor ta') ∧
      ta'.shape = ta.shape ∧ ta'.dtype = ta.dtype ∧
      ∀ i a u w q, ta.at? i = some a → tu.at? i = some u →
        hh.at? (i.take c.probabilities.shape.length) = some w →
        c.probabilities.at? (i.take c.probabilities.shape.length) = some q →
        let dM := DType.promote c.probabilities.dtype tu.dtype
        ta'.at? i = some (if Spec.isHalted c.probabilities.dtype c.state.epsilon q then a else
          Arith.add ta.dtype a (convS dM ta.dtype
            (Arith.mul dM (convS c.probabilities.dtype dM w) (convS tu.dtype dM u)))) := by
  obtain ⟨r, hr⟩ := hb
  obtain ⟨hx, h1, h1d, h1b, h1a⟩ := setupLeftBroadcastT_prefix hh r
  rw [hs, hr] at h1 h1b h1a
  obtain ⟨m, h2, h2b, h2a⟩ := setupLeftBroadcast_prefix c.haltedBatches r
  rw [haltedBatches_shape, hr] at h2 h2b h2a
  obtain ⟨m', h3⟩ := Arr.broadcastTo_of h2b
  obtain ⟨-, h3s, h3a⟩ := Arr.broadcastTo_ok h3
  have hbs : Arr.bshape hx.shape tu.shape = some ta.shape := by rw [hsu]; exact h1b
  obtain ⟨wt, h4, h4s⟩ := Tensor.binop_of (op := Arith.mul) hbs
  obtain ⟨h4d, -, h4a⟩ := Tensor.binop_ok h4
  obtain ⟨nw, h5, h5d, h5s, h5a⟩ := Tensor.binop_same (op := Arith.add) (a := ta) (b := wt) h4s.symm
  have h5d' : nw.dtype = ta.dtype := by rw [h5d, h4d, h1d, hd, hdt]
  obtain ⟨res, h6⟩ := Tensor.select_of (p := m') (a := ta) (b := nw) h5s.symm h5d'.symm h3s
  obtain ⟨-, -, h6d, h6s, -, h6a⟩ := Tensor.select_ok h6
  refine ⟨res, ?_, h6s, h6d, ?_⟩
  · unfold updateAccumulator
    simp only [Leaf.asTensor, ok_bind]
    rw [if_neg (by rw [hsu]; simp)]
    simp only [h1, h2, h3, h4, h5, h6, ok_bind, pure_eq_ok]
  · intro i a u w q ha hu hw hq
    simp only
    have hi : InB ta.shape i := (Arr.at?_isSome (a := ta.arr)).1 (by rw [← Tensor.at?, ha]; rfl)
    have e1 := h1a i hi
    rw [hw] at e1
    have e2 := h2a i hi
    rw [at?_haltedBatches c hf, hq] at e2
    have e3 := h3a i hi
    rw [e2] at e3
    have e4 := h4a i (by rw [h4s]; exact hi)
    rw [e1, hsu, Arr.bIdx_self hi, hu, h4d, h1d, hd] at e4
    simp only [Option.bind_eq_bind, Option.bind_some, Option.pure_def] at e4
    have e5 := h5a i
    rw [ha, e4, h5d', h4d, h1d, hd] at e5
    simp only [Option.bind_eq_bind, Option.bind_some, Option.pure_def, Tensor.convS_self] at e5
    have e6 := h6a h3s i
    rw [e3, ha, e5] at e6
    simp only [Option.map_some, Option.bind_eq_bind, Option.bind_some] at e6
    rw [e6]
    split <;> rfl

/-- What success of `_update_accumulator` on one pair of leaves says about the update leaf. -/
theorem updateAccumulator_ok (c : Controller α) (ta : Tensor α) (lu l' : Leaf α) (hh : Tensor α)
    (hs : hh.shape = c.probabilities.shape) (hd : hh.dtype = c.probabilities.dtype)
    (hb : c.probabilities.shape <+: ta.shape)
    (ok : c.updateAccumulator (.tensor ta) lu hh = .ok l') :
    ∃ tu, lu = .tensor tu ∧ tu.shape = ta.shape ∧
      DType.promote ta.dtype (DType.promote c.probabilities.dtype tu.dtype) = ta.dtype := by
  cases lu with
  | obj o => simp [updateAccumulator, Leaf.asTensor] at ok
  | tensor tu =>
    refine ⟨tu, rfl, ?_⟩
    unfold updateAccumulator at ok
    simp only [Leaf.asTensor, ok_bind] at ok
    split at ok
    · cases ok
    · rename_i hsu
      rw [not_not] at hsu
      refine ⟨hsu.symm, ?_⟩
      obtain ⟨r, hr⟩ := hb
      obtain ⟨hx, h1, h1d, h1b, h1a⟩ := setupLeftBroadcastT_prefix hh r
      rw [hs, hr] at h1 h1b h1a
      rw [h1, ok_bind] at ok
      simp only [bind_ok] at ok
      obtain ⟨m, -, m', -, wt, hwt, nw, hnw, res, hres, -⟩ := ok
      obtain ⟨-, h2, -⟩ := Tensor.select_ok hres
      obtain ⟨h3, -⟩ := Tensor.binop_ok hnw
      obtain ⟨h4, -⟩ := Tensor.binop_ok hwt
      rw [← hd, ← h1d, ← h4, ← h3, ← h2]

/-! ### The accumulator loop -/

theorem commitOne_congr (c : Controller α) (hh : Tensor α) {a a' u u' : Dict (PyTree (Leaf α))}
    {n : String} (ha : a.get? n = a'.get? n) (hu : u.get? n = u'.get? n) :
    c.commitOne hh a u n = c.commitOne hh a' u' n := by
  unfold commitOne Dict.getItem
  rw [ha, hu]

theorem commitLoop_ok (c : Controller α) (hh : Tensor α) : ∀ (names : List String)
    (a u a' u' : Dict (PyTree (Leaf α))), names.Nodup →
    c.commitLoop hh names a u = .ok (a', u') →
    (∀ n ∈ names, ∃ t, c.commitOne hh a u n = .ok t ∧ a'.get? n = some t ∧
      u'.get? n = some .none) ∧
    (∀ n, n ∉ names → a'.get? n = a.get? n ∧ u'.get? n = u.get? n) ∧
    ((∀ n ∈ names, n ∈ a.keys) → a'.keys = a.keys) ∧
    ((∀ n ∈ names, n ∈ u.keys) → u'.keys = u.keys)
  | [], a, u, a', u', _, h => by
    simp only [commitLoop, Except.ok.injEq, Prod.mk.injEq] at h
    obtain ⟨rfl, rfl⟩ := h
    exact ⟨by simp, fun n _ => ⟨rfl, rfl⟩, fun _ => rfl, fun _ => rfl⟩
  | n :: names, a, u, a', u', hnd, h => by
    rw [List.nodup_cons] at hnd
    simp only [commitLoop] at h
    split at h
    · cases h
    · rename_i t ht
      rw [wrapRuntime_ok] at ht
      obtain ⟨h1, h2, h3, h4⟩ := commitLoop_ok c hh names _ _ a' u' hnd.2 h
      refine ⟨?_, ?_, ?_, ?_⟩
      · intro m hm
        rcases List.mem_cons.1 hm with rfl | hm
        · refine ⟨t, ht, ?_, ?_⟩
          · rw [(h2 m hnd.1).1]; simp
          · rw [(h2 m hnd.1).2]; simp
        · obtain ⟨t', ht', h5⟩ := h1 m hm
          have hne : n ≠ m := by rintro rfl; exact hnd.1 hm
          rw [commitOne_congr c hh (a' := a) (u' := u) (Dict.get?_set_ne _ hne _)
            (Dict.get?_set_ne _ hne _)] at ht'
          exact ⟨t', ht', h5⟩
      · intro m hm
        simp only [List.mem_cons, not_or] at hm
        rw [(h2 m hm.2).1, (h2 m hm.2).2, Dict.get?_set_ne _ (Ne.symm hm.1),
          Dict.get?_set_ne _ (Ne.symm hm.1)]
        exact ⟨rfl, rfl⟩
      · intro hk
        have hn := hk n (by simp)
        rw [h3 (fun m hm => by rw [Dict.keys_set_of_mem hn]; exact hk m (by simp [hm])),
          Dict.keys_set_of_mem hn]
      · intro hk
        have hn := hk n (by simp)
        rw [h4 (fun m hm => by rw [Dict.keys_set_of_mem hn]; exact hk m (by simp [hm])),
          Dict.keys_set_of_mem hn]

theorem commitLoop_of (c : Controller α) (hh : Tensor α) : ∀ (names : List String)
    (a u : Dict (PyTree (Leaf α))), names.Nodup →
    (∀ n ∈ names, ∃ t, c.commitOne hh a u n = .ok t) → ∃ r, c.commitLoop hh names a u = .ok r
  | [], a, u, _, _ => ⟨_, rfl⟩
  | n :: names, a, u, hnd, h => by
    rw [List.nodup_cons] at hnd
    obtain ⟨t, ht⟩ := h n (by simp)
    obtain ⟨r, hr⟩ := commitLoop_of c hh names (a.set n t) (u.set n .none) hnd.2 fun m hm => by
      have hne : n ≠ m := by rintro rfl; exact hnd.1 hm
      rw [commitOne_congr c hh (a' := a) (u' := u) (Dict.get?_set_ne _ hne _)
        (Dict.get?_set_ne _ hne _)]
      exact h m (by simp [hm])
    refine ⟨r, ?_⟩
    simp only [commitLoop, ht, wrapRuntime]
    exact hr

theorem commitLoop_error (c : Controller α) (hh : Tensor α) {e : Err} : ∀ (names : List String)
    (a u : Dict (PyTree (Leaf α))), c.commitLoop hh names a u = .error e → e = .runtimeError
  | [], a, u, h => by cases h
  | n :: names, a, u, h => by
    simp only [commitLoop] at h
    split at h
    · rename_i e' he
      cases h
      exact (wrapRuntime_error.1 he).1
    · exact commitLoop_error c hh names _ _ h

theorem commitOne_ok (c : Controller α) (hh : Tensor α) {a u : Dict (PyTree (Leaf α))} {n : String}
    {t : PyTree (Leaf α)} (h : c.commitOne hh a u n = .ok t) :
    ∃ ta tu, a.get? n = some ta ∧ u.get? n = some tu ∧ tu.isNone = false ∧
      mergePytrees (fun x y => c.updateAccumulator x y hh) ta tu = .ok t := by
  unfold commitOne at h
  simp only [bind_ok, Dict.getItem_ok] at h
  obtain ⟨ta, h1, tu, h2, h3⟩ := h
  split at h3
  · cases h3
  · rename_i hn
    exact ⟨ta, tu, h1, h2, by simpa using hn, h3⟩

end JaxAct.Controller
