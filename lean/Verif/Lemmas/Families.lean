import Verif.Spec.Families
import Verif.Lemmas.Entry
import Verif.Props.C53

/-! # Calls keep a relation between families of states and one state -/

namespace JaxAct
open ACTStates
variable {ι α β : Type} {R : (ι → α) → β → Prop}

theorem StateRel.alike {s : ι → ACTStates α} {S : ACTStates β} (h : StateRel R s S) (θ : ι) :
    StatesAlike (s θ) S :=
  ⟨h.iterations.1 θ, h.residuals.1 θ, h.probabilities.1 θ, h.defaults.1 θ, h.accumulators.1 θ,
    h.updates.1 θ, h.error_mode θ⟩

theorem CallRel.alike {op : ι → Op α} {OP : Op β} (h : CallRel R op OP) (θ : ι) :
    CallsAlike (op θ) OP := by
  cases h with
  | cache n h => exact .cache n (h.1 θ)
  | iterate h => exact .iterate (h.1 θ)
  | reset => exact .reset

/-- Leaves of alike dictionaries have the same types. -/
theorem DictsAlike.leaf_type {d : Dict (PyTree (Leaf α))} {D : Dict (PyTree (Leaf β))}
    (h : DictsAlike d D) (n : String) (k : Nat) :
    (leaf? d n k).map Leaf.type = (leaf? D n k).map Leaf.type := by
  unfold leaf?
  have := h n
  cases h1 : d.get? n with
  | none =>
    cases h2 : D.get? n with
    | none => rfl
    | some T => rw [h1, h2] at this; cases this
  | some t =>
    cases h2 : D.get? n with
    | none => rw [h1, h2] at this; cases this
    | some T =>
      rw [h1, h2] at this
      cases this with
      | some this =>
        have e := congrArg (·[k]?) this.2
        simpa only [List.getElem?_map] using e

theorem DictsAlike.leaf_tensor {d : Dict (PyTree (Leaf α))} {D : Dict (PyTree (Leaf β))}
    (h : DictsAlike d D) {n : String} {k : Nat} {t : Tensor α} {T : Tensor β}
    (h1 : leaf? d n k = some (.tensor t)) (h2 : leaf? D n k = some (.tensor T)) : t.dtype = T.dtype := by
  have := h.leaf_type n k
  rw [h1, h2] at this
  simp only [Option.map_some, Leaf.type, Option.some.injEq, Prod.mk.injEq] at this
  exact this.2

theorem entry?_set {d : Dict (PyTree (Leaf α))} {n m : String} {t : PyTree (Leaf α)} {k : Nat}
    {i : List Nat} : entry? (d.set n t) m k i = if n = m then t.entry? k i else entry? d m k i := by
  unfold entry? leaf? PyTree.entry?
  rw [Dict.get?_set]
  by_cases h : n = m
  · simp only [h, if_true]
    cases t.treeLeaves[k]? <;> rfl
  · simp only [h, if_false]

variable [Arith α] [Arith β]

/-- `IterStep.entry` with the dtypes it speaks of. -/
theorem IterStep.entry_dtype {s s' : ACTStates α} {h : Tensor α} (hwf : s.WF) (st : IterStep s h s')
    {n : String} {k : Nat} {i : List Nat} {a : α} (ha : entry? s.accumulators n k i = some a) :
    ∃ u p x ta tu, entry? s.updates n k i = some u ∧
      s.probabilities.at? (i.take s.probabilities.shape.length) = some p ∧
      h.at? (i.take s.probabilities.shape.length) = some x ∧
      leaf? s.accumulators n k = some (.tensor ta) ∧ leaf? s.updates n k = some (.tensor tu) ∧
      entry? s'.accumulators n k i = some (Spec.accStep s.probabilities.dtype ta.dtype tu.dtype s.epsilon
        s.depression_constant p (convS h.dtype s.probabilities.dtype x) a u) := by
  obtain ⟨p, hp⟩ := hwf.prob_of_entry ha
  obtain ⟨x, hx⟩ := Controller.at?_some_of_shape (b := h) st.hshape hp
  obtain ⟨l, h1, h2⟩ := entry?_eq_some.1 ha
  obtain ⟨t, h3, h4⟩ := leaf?_eq_some.1 h1
  obtain ⟨u, a', e1, e2, e3⟩ := st.tree n t h3
  obtain ⟨ta, tu, ta', f1, f2, f3, f4⟩ := e3.leaf k l h4
  subst f1
  obtain ⟨y, hy⟩ := Controller.at?_some_of_shape (b := tu) f4.ushape (show ta.at? i = some a from h2)
  have := f4.entry i a y p x h2 hy hp hx
  exact ⟨y, p, x, ta, tu, entry?_eq_some.2 ⟨_, leaf?_eq_some.2 ⟨u, e1, f2⟩, hy⟩, hp, hx, h1,
    leaf?_eq_some.2 ⟨u, e1, f2⟩, entry?_eq_some.2 ⟨_, leaf?_eq_some.2 ⟨a', e2, f3⟩, this⟩⟩

variable (R)

/-- The scalar step keeps the relation. -/
structure StepRel (d dI dH : DType) (eps dep p x : ι → α) (E D P X : β) : Prop where
  prob : R (fun θ => Arith.add d (p θ) (Spec.weight d (eps θ) (dep θ) (p θ) (convS dH d (x θ))))
    (Arith.add d P (Spec.weight d E D P (convS dH d X)))
  resid : ∀ r Q, R r Q →
    R (fun θ => (Spec.step d dI (eps θ) (dep θ) ⟨p θ, r θ, r θ⟩ (convS dH d (x θ))).resid)
      (Spec.step d dI E D ⟨P, Q, Q⟩ (convS dH d X)).resid
  iter : ∀ n N, R n N →
    R (fun θ => (Spec.step d dI (eps θ) (dep θ) ⟨p θ, n θ, n θ⟩ (convS dH d (x θ))).iter)
      (Spec.step d dI E D ⟨P, N, N⟩ (convS dH d X)).iter
  acc : ∀ dA dU a u A U, R a A → R u U →
    R (fun θ => Spec.accStep d dA dU (eps θ) (dep θ) (p θ) (convS dH d (x θ)) (a θ) (u θ))
      (Spec.accStep d dA dU E D P (convS dH d X) A U)

/-- The scalar reset keeps the relation. -/
structure ResetRel (d : DType) (eps p : ι → α) (E P : β) : Prop where
  keep : ∀ d' x X, R x X → R (fun θ => Spec.keepIf d' (!Spec.isHalted d (eps θ) (p θ)) (x θ))
    (Spec.keepIf d' (!Spec.isHalted d E P) X)
  entry : ∀ a x A X, R a A → R x X → R (fun θ => Spec.resetEntry d (eps θ) (p θ) (a θ) (x θ))
    (Spec.resetEntry d E P A X)

variable {R}

theorem iterate_rel {s : ι → ACTStates α} {S : ACTStates β} (hwf : ∀ θ, (s θ).WF) (hWF : S.WF)
    (hs : StateRel R s S) {h : ι → Tensor α} {H : Tensor β} (hh : TensorRel R h H)
    (hstep : ∀ b p x P X, (∀ θ, (s θ).probabilities.at? b = some (p θ)) →
      (∀ θ, (h θ).at? b = some (x θ)) → R p P → R x X → StepRel R S.probabilities.dtype
        S.iterations.dtype H.dtype (fun θ => (s θ).epsilon) (fun θ => (s θ).depression_constant) p x
        S.epsilon S.depression_constant P X)
    {s' : ι → ACTStates α} {S' : ACTStates β} (st : ∀ θ, IterStep (s θ) (h θ) (s' θ))
    (ST : IterStep S H S') (hal : ∀ θ, StatesAlike (s' θ) S') : StateRel R s' S' := by
  have pd : ∀ θ, (s θ).probabilities.dtype = S.probabilities.dtype := fun θ => (hs.probabilities.1 θ).2
  have ps : ∀ θ, (s θ).probabilities.shape = S.probabilities.shape := fun θ => (hs.probabilities.1 θ).1
  have id : ∀ θ, (s θ).iterations.dtype = S.iterations.dtype := fun θ => (hs.iterations.1 θ).2
  have hd : ∀ θ, (h θ).dtype = H.dtype := fun θ => (hh.1 θ).2
  -- the cells
  have cell : ∀ b P, S.probabilities.at? b = some P → ∃ (p r n x : ι → α) (Q N X : β),
      R r Q ∧ R n N ∧
      StepRel R S.probabilities.dtype S.iterations.dtype H.dtype (fun θ => (s θ).epsilon)
        (fun θ => (s θ).depression_constant) p x S.epsilon S.depression_constant P X ∧
      (∀ θ, (s' θ).probabilities.at? b = some (Spec.step S.probabilities.dtype S.iterations.dtype
        (s θ).epsilon (s θ).depression_constant ⟨p θ, r θ, n θ⟩
          (convS H.dtype S.probabilities.dtype (x θ))).prob ∧
        (s' θ).residuals.at? b = some (Spec.step S.probabilities.dtype S.iterations.dtype
        (s θ).epsilon (s θ).depression_constant ⟨p θ, r θ, n θ⟩
          (convS H.dtype S.probabilities.dtype (x θ))).resid ∧
        (s' θ).iterations.at? b = some (Spec.step S.probabilities.dtype S.iterations.dtype
        (s θ).epsilon (s θ).depression_constant ⟨p θ, r θ, n θ⟩
          (convS H.dtype S.probabilities.dtype (x θ))).iter) ∧
      (S'.probabilities.at? b = some (Spec.step S.probabilities.dtype S.iterations.dtype
        S.epsilon S.depression_constant ⟨P, Q, N⟩ (convS H.dtype S.probabilities.dtype X)).prob ∧
        S'.residuals.at? b = some (Spec.step S.probabilities.dtype S.iterations.dtype
        S.epsilon S.depression_constant ⟨P, Q, N⟩ (convS H.dtype S.probabilities.dtype X)).resid ∧
        S'.iterations.at? b = some (Spec.step S.probabilities.dtype S.iterations.dtype
        S.epsilon S.depression_constant ⟨P, Q, N⟩ (convS H.dtype S.probabilities.dtype X)).iter) := by
    intro b P hP
    obtain ⟨Q, N, X, hQ, hN, hX, C⟩ := ST.cellAt hWF hP
    obtain ⟨p, hp, rp⟩ := hs.probabilities.2 b P hP
    obtain ⟨r, hr, rr⟩ := hs.residuals.2 b Q hQ
    obtain ⟨n, hn, rn⟩ := hs.iterations.2 b N hN
    obtain ⟨x, hx, rx⟩ := hh.2 b X hX
    refine ⟨p, r, n, x, Q, N, X, rr, rn, hstep b p x P X hp hx rp rx, fun θ => ?_, C⟩
    have := (st θ).cell b _ _ _ _ (hp θ) (hr θ) (hn θ) (hx θ)
    rw [pd θ, id θ, hd θ] at this
    exact this
  refine ⟨?_, ?_, fun θ => (hal θ).error_mode, ⟨fun θ => (hal θ).probabilities, ?_⟩,
    ⟨fun θ => (hal θ).residuals, ?_⟩, ⟨fun θ => (hal θ).iterations, ?_⟩,
    ⟨fun θ => (hal θ).defaults, ?_⟩, ⟨fun θ => (hal θ).accumulators, ?_⟩,
    ⟨fun θ => (hal θ).updates, ?_⟩⟩
  · simp only [(st _).epsilon, ST.epsilon]; exact hs.epsilon
  · simp only [(st _).depression, ST.depression]; exact hs.depression
  · intro b Y hY
    obtain ⟨P, hP⟩ := ST.index hY
    obtain ⟨p, r, n, x, Q, N, X, rr, rn, k, k1, K1⟩ := cell b P hP
    rw [K1.1] at hY
    cases hY
    exact ⟨_, fun θ => (k1 θ).1, k.prob⟩
  · intro b Y hY
    obtain ⟨P, hP⟩ := Controller.at?_some_of_shape (b := S.probabilities)
      (by rw [ST.rshape, hWF.res_shape]) hY
    obtain ⟨p, r, n, x, Q, N, X, rr, rn, k, k1, K1⟩ := cell b P hP
    rw [K1.2.1] at hY
    cases hY
    exact ⟨_, fun θ => (k1 θ).2.1, k.resid r Q rr⟩
  · intro b Y hY
    obtain ⟨P, hP⟩ := Controller.at?_some_of_shape (b := S.probabilities)
      (by rw [ST.ishape, hWF.it_shape]) hY
    obtain ⟨p, r, n, x, Q, N, X, rr, rn, k, k1, K1⟩ := cell b P hP
    rw [K1.2.2] at hY
    cases hY
    exact ⟨_, fun θ => (k1 θ).2.2, k.iter n N rn⟩
  · simp only [(st _).defaults, ST.defaults]; exact hs.defaults.2
  · intro m k i Y hY
    cases hA : entry? S.accumulators m k i with
    | none => rw [ST.entry_none hA] at hY; cases hY
    | some A =>
      obtain ⟨U, P, X, TA, TU, hU, hP, hX, lA, lU, hE⟩ := ST.entry_dtype hWF hA
      rw [hE] at hY
      cases hY
      obtain ⟨a, ha, ra⟩ := hs.accumulators.2 m k i A hA
      obtain ⟨u, hu, ru⟩ := hs.updates.2 m k i U hU
      obtain ⟨p, hp, rp⟩ := hs.probabilities.2 _ P hP
      obtain ⟨x, hx, rx⟩ := hh.2 _ X hX
      refine ⟨_, fun θ => ?_, (hstep _ p x P X hp hx rp rx).acc TA.dtype TU.dtype a u A U ra ru⟩
      obtain ⟨u', p', x', ta, tu, e1, e2, e3, e4, e5, e6⟩ := (st θ).entry_dtype (hwf θ) (ha θ)
      rw [ps θ] at e2 e3
      rw [hu θ] at e1
      rw [hp θ] at e2
      rw [hx θ] at e3
      cases e1; cases e2; cases e3
      rw [e6, pd θ, hd θ, (hs.accumulators.1 θ).leaf_tensor e4 lA, (hs.updates.1 θ).leaf_tensor e5 lU]
  · intro m k i Y hY
    obtain ⟨l, h1, h2⟩ := entry?_eq_some.1 hY
    obtain ⟨t, h3, h4⟩ := leaf?_eq_some.1 h1
    have hm : m ∈ S.accumulators.keys :=
      (hWF.upd_iff m).1 (by rw [← ST.ukeys]; exact Dict.mem_keys_iff.2 ⟨t, h3⟩)
    rw [ST.cleared m hm] at h3
    cases h3
    cases h4

theorem reset_rel {s : ι → ACTStates α} {S : ACTStates β} (hwf : ∀ θ, (s θ).WF) (hWF : S.WF)
    (hs : StateRel R s S)
    (hstep : ∀ b p P, (∀ θ, (s θ).probabilities.at? b = some (p θ)) → R p P →
      ResetRel R S.probabilities.dtype (fun θ => (s θ).epsilon) p S.epsilon P)
    {s' : ι → ACTStates α} {S' : ACTStates β} (st : ∀ θ, ResetStep (s θ) (s' θ))
    (ST : ResetStep S S') (hal : ∀ θ, StatesAlike (s' θ) S') : StateRel R s' S' := by
  have pd : ∀ θ, (s θ).probabilities.dtype = S.probabilities.dtype := fun θ => (hs.probabilities.1 θ).2
  have ps : ∀ θ, (s θ).probabilities.shape = S.probabilities.shape := fun θ => (hs.probabilities.1 θ).1
  have id : ∀ θ, (s θ).iterations.dtype = S.iterations.dtype := fun θ => (hs.iterations.1 θ).2
  have cell : ∀ b P, S.probabilities.at? b = some P → ∃ (p r n : ι → α) (Q N : β),
      R p P ∧ R r Q ∧ R n N ∧
      ResetRel R S.probabilities.dtype (fun θ => (s θ).epsilon) p S.epsilon P ∧
      (∀ θ, (s' θ).probabilities.at? b = some (Spec.resetCell S.probabilities.dtype S.iterations.dtype
        (s θ).epsilon ⟨p θ, r θ, n θ⟩).prob ∧
        (s' θ).residuals.at? b = some (Spec.resetCell S.probabilities.dtype S.iterations.dtype
        (s θ).epsilon ⟨p θ, r θ, n θ⟩).resid ∧
        (s' θ).iterations.at? b = some (Spec.resetCell S.probabilities.dtype S.iterations.dtype
        (s θ).epsilon ⟨p θ, r θ, n θ⟩).iter) ∧
      (S'.probabilities.at? b = some (Spec.resetCell S.probabilities.dtype S.iterations.dtype
        S.epsilon ⟨P, Q, N⟩).prob ∧
        S'.residuals.at? b = some (Spec.resetCell S.probabilities.dtype S.iterations.dtype
        S.epsilon ⟨P, Q, N⟩).resid ∧
        S'.iterations.at? b = some (Spec.resetCell S.probabilities.dtype S.iterations.dtype
        S.epsilon ⟨P, Q, N⟩).iter) := by
    intro b P hP
    obtain ⟨Q, N, hQ, hN⟩ := hWF.cell hP
    obtain ⟨p, hp, rp⟩ := hs.probabilities.2 b P hP
    obtain ⟨r, hr, rr⟩ := hs.residuals.2 b Q hQ
    obtain ⟨n, hn, rn⟩ := hs.iterations.2 b N hN
    refine ⟨p, r, n, Q, N, rp, rr, rn, hstep b p P hp rp, fun θ => ?_, ST.cell b P Q N hP hQ hN⟩
    have := (st θ).cell b _ _ _ (hp θ) (hr θ) (hn θ)
    rw [pd θ, id θ] at this
    exact this
  refine ⟨?_, ?_, fun θ => (hal θ).error_mode, ⟨fun θ => (hal θ).probabilities, ?_⟩,
    ⟨fun θ => (hal θ).residuals, ?_⟩, ⟨fun θ => (hal θ).iterations, ?_⟩,
    ⟨fun θ => (hal θ).defaults, ?_⟩, ⟨fun θ => (hal θ).accumulators, ?_⟩,
    ⟨fun θ => (hal θ).updates, ?_⟩⟩
  · simp only [(st _).epsilon, ST.epsilon]; exact hs.epsilon
  · simp only [(st _).depression, ST.depression]; exact hs.depression
  · intro b Y hY
    obtain ⟨P, hP⟩ := ST.index hY
    obtain ⟨p, r, n, Q, N, rp, rr, rn, k, k1, K1⟩ := cell b P hP
    rw [K1.1] at hY
    cases hY
    exact ⟨_, fun θ => (k1 θ).1, k.keep _ _ _ rp⟩
  · intro b Y hY
    obtain ⟨P, hP⟩ := Controller.at?_some_of_shape (b := S.probabilities)
      (by rw [ST.rshape, hWF.res_shape]) hY
    obtain ⟨p, r, n, Q, N, rp, rr, rn, k, k1, K1⟩ := cell b P hP
    rw [K1.2.1] at hY
    cases hY
    exact ⟨_, fun θ => (k1 θ).2.1, k.keep _ _ _ rr⟩
  · intro b Y hY
    obtain ⟨P, hP⟩ := Controller.at?_some_of_shape (b := S.probabilities)
      (by rw [ST.ishape, hWF.it_shape]) hY
    obtain ⟨p, r, n, Q, N, rp, rr, rn, k, k1, K1⟩ := cell b P hP
    rw [K1.2.2] at hY
    cases hY
    exact ⟨_, fun θ => (k1 θ).2.2, k.keep _ _ _ rn⟩
  · simp only [(st _).defaults, ST.defaults]; exact hs.defaults.2
  · intro m k i Y hY
    cases hA : entry? S.accumulators m k i with
    | none => rw [ST.entry_none hA] at hY; cases hY
    | some A =>
      obtain ⟨X, P, hX, hP, hE⟩ := ST.entry hWF hA
      rw [hE] at hY
      cases hY
      obtain ⟨a, ha, ra⟩ := hs.accumulators.2 m k i A hA
      obtain ⟨x, hx, rx⟩ := hs.defaults.2 m k i X hX
      obtain ⟨p, hp, rp⟩ := hs.probabilities.2 _ P hP
      refine ⟨_, fun θ => ?_, (hstep _ p P hp rp).entry a x A X ra rx⟩
      obtain ⟨x', p', e1, e2, e3⟩ := (st θ).entry (hwf θ) (ha θ)
      rw [ps θ] at e2
      rw [hx θ] at e1
      rw [hp θ] at e2
      cases e1; cases e2
      rw [e3, pd θ]
  · simp only [(st _).updates, ST.updates]; exact hs.updates.2

omit [Arith α] [Arith β] in
theorem cache_rel {s : ι → ACTStates α} {S : ACTStates β} (hs : StateRel R s S) {m : String}
    {t : ι → PyTree (Leaf α)} {T : PyTree (Leaf β)} (ht : TreeRel R t T) {s' : ι → ACTStates α}
    {S' : ACTStates β} (st : ∀ θ, CacheStep (s θ) m (t θ) (s' θ)) (ST : CacheStep S m T S')
    (hal : ∀ θ, StatesAlike (s' θ) S') : StateRel R s' S' := by
  obtain rfl : s' = fun θ => { s θ with updates := (s θ).updates.set m (t θ) } :=
    funext fun θ => (st θ).eq
  obtain ⟨-, rfl⟩ := ST
  refine { hs with updates := ⟨fun θ => (hal θ).updates, fun n k i X hX => ?_⟩ }
  rw [entry?_set] at hX
  simp only [entry?_set]
  split at hX
  · next h => simp only [h, if_true]; exact ht.2 k i X hX
  · next h => simp only [h, if_false]; exact hs.updates.2 n k i X hX

end JaxAct
