import Verif.Spec.Editable
import Verif.Props.C71
import Verif.Props.C15
import Verif.Props.C16
import Verif.Props.C62
import Verif.Props.C93

/-!
# C94 An editor reaches exactly the states of the same type, among them the reset one
-/

namespace JaxAct
open Editor ACTStates
variable {α : Type} [Arith α]

omit [Arith α] in
theorem exists_last_edit {T : Target} : ∀ {eds : List (Edit α)}, (∃ x ∈ eds, x.target = T) →
    ∃ pre ed post, eds = pre ++ ed :: post ∧ ed.target = T ∧ ∀ x ∈ post, x.target ≠ ed.target
  | [], h => by obtain ⟨x, hx, -⟩ := h; cases hx
  | y :: eds, h => by
    by_cases h' : ∃ x ∈ eds, x.target = T
    · obtain ⟨pre, ed, post, rfl, h2, h3⟩ := exists_last_edit h'
      exact ⟨y :: pre, ed, post, rfl, h2, h3⟩
    · have hy : y.target = T := by
        obtain ⟨x, hx, hT⟩ := h
        rcases List.mem_cons.1 hx with rfl | hx
        · exact hT
        · exact absurd ⟨x, hx, hT⟩ h'
      exact ⟨[], y, eds, rfl, hy, fun x hx e => h' ⟨x, hx, e.trans hy⟩⟩

/-- Every place holds what an edit of it wrote, if there is one. -/
theorem runEdits_place {e e' : Editor α} {eds : List (Edit α)} (h : runEdits e eds = .ok e')
    (T : Target) :
    ((∀ x ∈ eds, x.target ≠ T) ∧ T.Agree e.state e'.state) ∨
      ∃ ed ∈ eds, ed.target = T ∧ ed.Holds e'.state := by
  obtain ⟨h1, h2, -⟩ := C71_last_edit_counts h
  by_cases hT : ∃ x ∈ eds, x.target = T
  · obtain ⟨pre, ed, post, he, h3, h4⟩ := exists_last_edit hT
    exact .inr ⟨ed, by simp [he], h3, h1 pre ed post he h4⟩
  · have : ∀ x ∈ eds, x.target ≠ T := fun x hx e => hT ⟨x, hx, e⟩
    exact .inl ⟨this, h2 T this⟩

theorem runEdits_keys {s₀ : ACTStates α} (hd : ∀ n, n ∈ s₀.defaults.keys ↔ n ∈ s₀.accumulators.keys)
    (hu : ∀ n, n ∈ s₀.updates.keys ↔ n ∈ s₀.accumulators.keys) :
    ∀ {eds : List (Edit α)} {e e' : Editor α}, (∀ ed ∈ eds, ed.Fits s₀) →
    e.state.accumulators.keys = s₀.accumulators.keys → e.state.defaults.keys = s₀.defaults.keys →
    e.state.updates.keys = s₀.updates.keys → runEdits e eds = .ok e' →
    e'.state.accumulators.keys = s₀.accumulators.keys ∧ e'.state.defaults.keys = s₀.defaults.keys ∧
      e'.state.updates.keys = s₀.updates.keys
  | [], e, e', _, h1, h2, h3, h => by cases h; exact ⟨h1, h2, h3⟩
  | ed :: eds, e, e', hf, h1, h2, h3, h => by
    simp only [runEdits, bind_ok] at h
    obtain ⟨e1, h4, h5⟩ := h
    rw [call_ok h4] at h5
    have hfe := hf ed (by simp)
    refine runEdits_keys hd hu (fun x hx => hf x (by simp [hx])) ?_ ?_ ?_ h5 <;>
      cases ed <;> simp only [Edit.apply] <;> try assumption
    · obtain ⟨a, ha, -⟩ := hfe
      rw [Dict.keys_set_of_mem (by rw [h1]; exact Dict.mem_keys_iff.2 ⟨a, ha⟩), h1]
    · obtain ⟨a, ha, -⟩ := hfe
      rw [Dict.keys_set_of_mem (by rw [h2, hd]; exact Dict.mem_keys_iff.2 ⟨a, ha⟩), h2]
    · obtain ⟨a, ha, -⟩ := hfe
      rw [Dict.keys_set_of_mem (by rw [h3, hu]; exact Dict.mem_keys_iff.2 ⟨a, ha⟩), h3]

/-- C94: the states that an editor in standard mode can reach from a well-formed state, with trees free
of `None`, are exactly those that differ from it in values only, these being in range. -/
theorem C94_reachable_iff {s t : ACTStates α} (hs : s.WF) (hn : s.NoNone) :
    (∃ eds : List (Edit α), (∀ ed ∈ eds, ed.NoNone) ∧
      runEdits ⟨s, "standard"⟩ eds = .ok ⟨t, "standard"⟩) ↔ Editable s t := by
  constructor
  · rintro ⟨eds, hno, h⟩
    have hfit := (C71_accepted_independently_partial hs hn hno).1.1 ⟨_, h⟩
    obtain ⟨k1, k2, k3⟩ := runEdits_keys hs.def_iff hs.upd_iff hfit rfl rfl rfl h
    obtain ⟨-, -, -, hdep, hmode⟩ := C71_last_edit_counts h
    have place := runEdits_place h
    simp only at k1 k2 k3 hdep hmode
    refine ⟨hdep, hmode, ?_, ?_, ?_, ?_, ⟨k1, fun n v hv => ?_⟩, ⟨k2, fun n v hv => ?_⟩, k3,
      fun n v hv => ?_⟩
    · rcases place .epsilon with ⟨-, h'⟩ | ⟨ed, hm, hT, hH⟩
      · exact .inl h'.symm
      · have hf := hfit ed hm
        cases ed <;> simp only [Edit.target, reduceCtorEq] at hT
        simp only [Edit.Holds] at hH
        exact .inr (hH ▸ hf)
    · rcases place .probabilities with ⟨-, h'⟩ | ⟨ed, hm, hT, hH⟩
      · exact .inl h'.symm
      · have hf := hfit ed hm
        cases ed <;> simp only [Edit.target, reduceCtorEq] at hT
        simp only [Edit.Holds] at hH
        exact .inr (hH ▸ hf)
    · rcases place .residuals with ⟨-, h'⟩ | ⟨ed, hm, hT, hH⟩
      · exact .inl h'.symm
      · have hf := hfit ed hm
        cases ed <;> simp only [Edit.target, reduceCtorEq] at hT
        simp only [Edit.Holds] at hH
        exact .inr (hH ▸ hf)
    · rcases place .iterations with ⟨-, h'⟩ | ⟨ed, hm, hT, hH⟩
      · exact .inl h'.symm
      · have hf := hfit ed hm
        cases ed <;> simp only [Edit.target, reduceCtorEq] at hT
        simp only [Edit.Holds] at hH
        exact .inr (hH ▸ hf)
    · rcases place (.accumulator n) with ⟨-, h'⟩ | ⟨ed, hm, hT, hH⟩
      · have : s.accumulators.get? n = some v := by rw [show _ = _ from h']; exact hv
        exact ⟨hn.1 n v this, v, this, SameType.refl_of_batched (hs.batched n v this)⟩
      · have hf := hfit ed hm
        have hno' := hno ed hm
        cases ed <;> simp only [Edit.target, reduceCtorEq, Target.accumulator.injEq] at hT
        subst hT
        simp only [Edit.Holds] at hH
        rw [hv] at hH
        cases hH
        exact ⟨hno', hf⟩
    · rcases place (.default n) with ⟨-, h'⟩ | ⟨ed, hm, hT, hH⟩
      · have : s.defaults.get? n = some v := by rw [show _ = _ from h']; exact hv
        obtain ⟨a, ha⟩ := Dict.mem_keys_iff.1 ((hs.def_iff n).1 (Dict.mem_keys_iff.2 ⟨v, this⟩))
        exact ⟨hn.2 n v this, a, ha, hs.same n a v ha this⟩
      · have hf := hfit ed hm
        have hno' := hno ed hm
        cases ed <;> simp only [Edit.target, reduceCtorEq, Target.default.injEq] at hT
        subst hT
        simp only [Edit.Holds] at hH
        rw [hv] at hH
        cases hH
        exact ⟨hno', hf⟩
    · rcases place (.update n) with ⟨-, h'⟩ | ⟨ed, hm, hT, hH⟩
      · exact .inl (by rw [show _ = _ from h']; exact hv)
      · have hf := hfit ed hm
        have hno' := hno ed hm
        cases ed <;> simp only [Edit.target, reduceCtorEq, Target.update.injEq] at hT
        subst hT
        simp only [Edit.Holds] at hH
        rw [hv] at hH
        cases hH
        obtain ⟨a, ha, h1 | h1⟩ := hf
        · exact .inr (.inl h1)
        · rcases hno' with h2 | h2
          · exact .inr (.inl h2)
          · exact .inr (.inr ⟨h2, a, ha, h1⟩)
  · intro h
    classical
    let ups := t.updates.filter fun nv => decide (s.updates.get? nv.1 ≠ some nv.2)
    let eds : List (Edit α) :=
      (if t.epsilon = s.epsilon then [] else [.epsilon t.epsilon]) ++
      (if t.probabilities = s.probabilities then [] else [.probabilities t.probabilities]) ++
      (if t.residuals = s.residuals then [] else [.residuals t.residuals]) ++
      (if t.iterations = s.iterations then [] else [.iterations t.iterations]) ++
      t.accumulators.map (fun nv => .accumulator nv.1 nv.2) ++
      t.defaults.map (fun nv => .default nv.1 nv.2) ++
      ups.map (fun nv => .update nv.1 nv.2)
    have hka : Dict.WF t.accumulators := by
      have := hs.acc_keys; unfold Dict.WF at *; rw [h.accumulators.1]; exact this
    have hkd : Dict.WF t.defaults := by
      have := hs.def_keys; unfold Dict.WF at *; rw [h.defaults.1]; exact this
    have hku : Dict.WF t.updates := by
      have := hs.upd_keys; unfold Dict.WF at *; rw [h.ukeys]; exact this
    have mem : ∀ ed, ed ∈ eds ↔
        (t.epsilon ≠ s.epsilon ∧ ed = .epsilon t.epsilon) ∨
        (t.probabilities ≠ s.probabilities ∧ ed = .probabilities t.probabilities) ∨
        (t.residuals ≠ s.residuals ∧ ed = .residuals t.residuals) ∨
        (t.iterations ≠ s.iterations ∧ ed = .iterations t.iterations) ∨
        (∃ n v, t.accumulators.get? n = some v ∧ ed = .accumulator n v) ∨
        (∃ n v, t.defaults.get? n = some v ∧ ed = .default n v) ∨
        (∃ n v, t.updates.get? n = some v ∧ s.updates.get? n ≠ some v ∧ ed = .update n v) := by
      intro ed
      have e1 : ∀ {c : Prop} [Decidable c] {x : Edit α}, ed ∈ (if c then [] else [x]) ↔
          ¬ c ∧ ed = x := by
        intro c _ x; split <;> simp_all
      have e2 : ∀ {d : Dict (PyTree (Leaf α))} (_ : d.WF) {f : String → PyTree (Leaf α) → Edit α},
          ed ∈ d.map (fun nv => f nv.1 nv.2) ↔ ∃ n v, d.get? n = some v ∧ ed = f n v := by
        intro d hd f
        rw [List.mem_map]
        constructor
        · rintro ⟨⟨n, v⟩, hm, rfl⟩; exact ⟨n, v, Dict.get?_of_mem hd hm, rfl⟩
        · rintro ⟨n, v, hm, rfl⟩; exact ⟨(n, v), Dict.mem_of_get? hm, rfl⟩
      have e3 : ed ∈ ups.map (fun nv => Edit.update nv.1 nv.2) ↔
          ∃ n v, t.updates.get? n = some v ∧ s.updates.get? n ≠ some v ∧ ed = .update n v := by
        rw [List.mem_map]
        constructor
        · rintro ⟨⟨n, v⟩, hm, rfl⟩
          obtain ⟨hm, hne⟩ := List.mem_filter.1 hm
          exact ⟨n, v, Dict.get?_of_mem hku hm, by simpa using hne, rfl⟩
        · rintro ⟨n, v, hm, hne, rfl⟩
          exact ⟨(n, v), List.mem_filter.2 ⟨Dict.mem_of_get? hm, by simpa using hne⟩, rfl⟩
      simp only [eds, List.mem_append, e1, e2 hka, e2 hkd, e3, or_assoc, ne_eq]
    have hno : ∀ ed ∈ eds, ed.NoNone := by
      intro ed hed
      rcases (mem ed).1 hed with ⟨-, rfl⟩ | ⟨-, rfl⟩ | ⟨-, rfl⟩ | ⟨-, rfl⟩ | ⟨n, v, hv, rfl⟩ |
        ⟨n, v, hv, rfl⟩ | ⟨n, v, hv, hne, rfl⟩
      · trivial
      · trivial
      · trivial
      · trivial
      · exact (h.accumulators.2 n v hv).1
      · exact (h.defaults.2 n v hv).1
      · rcases h.updates n v hv with h' | h' | h'
        · exact absurd h' hne
        · exact .inl h'
        · exact .inr h'.1
    have hfit : ∀ ed ∈ eds, ed.Fits s := by
      intro ed hed
      rcases (mem ed).1 hed with ⟨hne, rfl⟩ | ⟨hne, rfl⟩ | ⟨hne, rfl⟩ | ⟨hne, rfl⟩ | ⟨n, v, hv, rfl⟩ |
        ⟨n, v, hv, rfl⟩ | ⟨n, v, hv, hne, rfl⟩
      · exact h.epsilon.resolve_left hne
      · exact h.probabilities.resolve_left hne
      · exact h.residuals.resolve_left hne
      · exact h.iterations.resolve_left hne
      · exact (h.accumulators.2 n v hv).2
      · exact (h.defaults.2 n v hv).2
      · rcases h.updates n v hv with h' | h' | ⟨-, a, ha, h'⟩
        · exact absurd h' hne
        · have hmem : n ∈ s.accumulators.keys := by
            rw [← hs.upd_iff, ← h.ukeys]; exact Dict.mem_keys_iff.2 ⟨v, hv⟩
          obtain ⟨a, ha⟩ := Dict.mem_keys_iff.1 hmem
          exact ⟨a, ha, .inl h'⟩
        · exact ⟨a, ha, .inr h'⟩
    obtain ⟨e', he'⟩ := (C71_accepted_independently_partial hs hn hno).1.2 hfit
    refine ⟨eds, hno, he'.trans ?_⟩
    obtain ⟨k1, k2, k3⟩ := runEdits_keys hs.def_iff hs.upd_iff hfit rfl rfl rfl he'
    obtain ⟨-, -, hm, hdep, hmode⟩ := C71_last_edit_counts he'
    have place := runEdits_place he'
    obtain ⟨s', m'⟩ := e'
    simp only at k1 k2 k3 hdep hmode hm place
    subst hm
    have p1 : s'.epsilon = t.epsilon := by
      rcases place .epsilon with ⟨hnone, h'⟩ | ⟨ed, hm, hT, hH⟩
      · by_cases hc : t.epsilon = s.epsilon
        · exact Eq.trans (Eq.symm h') hc.symm
        · exact absurd rfl (hnone _ ((mem _).2 (.inl ⟨hc, rfl⟩)))
      · rcases (mem ed).1 hm with ⟨-, rfl⟩ | ⟨-, rfl⟩ | ⟨-, rfl⟩ | ⟨-, rfl⟩ | ⟨n, v, hv, rfl⟩ |
          ⟨n, v, hv, rfl⟩ | ⟨n, v, hv, -, rfl⟩ <;> simp only [Edit.target, reduceCtorEq] at hT
        exact hH
    have p2 : s'.probabilities = t.probabilities := by
      rcases place .probabilities with ⟨hnone, h'⟩ | ⟨ed, hm, hT, hH⟩
      · by_cases hc : t.probabilities = s.probabilities
        · exact Eq.trans (Eq.symm h') hc.symm
        · exact absurd rfl (hnone _ ((mem _).2 (.inr (.inl ⟨hc, rfl⟩))))
      · rcases (mem ed).1 hm with ⟨-, rfl⟩ | ⟨-, rfl⟩ | ⟨-, rfl⟩ | ⟨-, rfl⟩ | ⟨n, v, hv, rfl⟩ |
          ⟨n, v, hv, rfl⟩ | ⟨n, v, hv, -, rfl⟩ <;> simp only [Edit.target, reduceCtorEq] at hT
        exact hH
    have p3 : s'.residuals = t.residuals := by
      rcases place .residuals with ⟨hnone, h'⟩ | ⟨ed, hm, hT, hH⟩
      · by_cases hc : t.residuals = s.residuals
        · exact Eq.trans (Eq.symm h') hc.symm
        · exact absurd rfl (hnone _ ((mem _).2 (.inr (.inr (.inl ⟨hc, rfl⟩)))))
      · rcases (mem ed).1 hm with ⟨-, rfl⟩ | ⟨-, rfl⟩ | ⟨-, rfl⟩ | ⟨-, rfl⟩ | ⟨n, v, hv, rfl⟩ |
          ⟨n, v, hv, rfl⟩ | ⟨n, v, hv, -, rfl⟩ <;> simp only [Edit.target, reduceCtorEq] at hT
        exact hH
    have p4 : s'.iterations = t.iterations := by
      rcases place .iterations with ⟨hnone, h'⟩ | ⟨ed, hm, hT, hH⟩
      · by_cases hc : t.iterations = s.iterations
        · exact Eq.trans (Eq.symm h') hc.symm
        · exact absurd rfl (hnone _ ((mem _).2 (.inr (.inr (.inr (.inl ⟨hc, rfl⟩))))))
      · rcases (mem ed).1 hm with ⟨-, rfl⟩ | ⟨-, rfl⟩ | ⟨-, rfl⟩ | ⟨-, rfl⟩ | ⟨n, v, hv, rfl⟩ |
          ⟨n, v, hv, rfl⟩ | ⟨n, v, hv, -, rfl⟩ <;> simp only [Edit.target, reduceCtorEq] at hT
        exact hH
    have p5 : s'.accumulators = t.accumulators := by
      refine Dict.ext_get? hka (k1.trans h.accumulators.1.symm) fun n => ?_
      cases hv : t.accumulators.get? n with
      | none =>
        rw [Dict.get?_eq_none_iff] at hv ⊢
        rw [k1, ← h.accumulators.1]; exact hv
      | some v =>
        rcases place (.accumulator n) with ⟨hnone, -⟩ | ⟨ed, hm, hT, hH⟩
        · exact absurd rfl (hnone _ ((mem (.accumulator n v)).2
            (.inr (.inr (.inr (.inr (.inl ⟨n, v, hv, rfl⟩)))))))
        · rcases (mem ed).1 hm with ⟨-, rfl⟩ | ⟨-, rfl⟩ | ⟨-, rfl⟩ | ⟨-, rfl⟩ | ⟨m, w, hw, rfl⟩ |
            ⟨m, w, hw, rfl⟩ | ⟨m, w, hw, -, rfl⟩ <;>
            simp only [Edit.target, reduceCtorEq, Target.accumulator.injEq] at hT
          subst hT
          rw [hv] at hw
          cases hw
          exact hH
    have p6 : s'.defaults = t.defaults := by
      refine Dict.ext_get? hkd (k2.trans h.defaults.1.symm) fun n => ?_
      cases hv : t.defaults.get? n with
      | none =>
        rw [Dict.get?_eq_none_iff] at hv ⊢
        rw [k2, ← h.defaults.1]; exact hv
      | some v =>
        rcases place (.default n) with ⟨hnone, -⟩ | ⟨ed, hm, hT, hH⟩
        · exact absurd rfl (hnone _ ((mem (.default n v)).2
            (.inr (.inr (.inr (.inr (.inr (.inl ⟨n, v, hv, rfl⟩))))))))
        · rcases (mem ed).1 hm with ⟨-, rfl⟩ | ⟨-, rfl⟩ | ⟨-, rfl⟩ | ⟨-, rfl⟩ | ⟨m, w, hw, rfl⟩ |
            ⟨m, w, hw, rfl⟩ | ⟨m, w, hw, -, rfl⟩ <;>
            simp only [Edit.target, reduceCtorEq, Target.default.injEq] at hT
          subst hT
          rw [hv] at hw
          cases hw
          exact hH
    have p7 : s'.updates = t.updates := by
      refine Dict.ext_get? hku (k3.trans h.ukeys.symm) fun n => ?_
      cases hv : t.updates.get? n with
      | none =>
        rw [Dict.get?_eq_none_iff] at hv ⊢
        rw [k3, ← h.ukeys]; exact hv
      | some v =>
        rcases place (.update n) with ⟨hnone, h'⟩ | ⟨ed, hm, hT, hH⟩
        · by_cases hc : s.updates.get? n = some v
          · exact Eq.trans (Eq.symm h') hc
          · exact absurd rfl (hnone _ ((mem (.update n v)).2
              (.inr (.inr (.inr (.inr (.inr (.inr ⟨n, v, hv, hc, rfl⟩))))))))
        · rcases (mem ed).1 hm with ⟨-, rfl⟩ | ⟨-, rfl⟩ | ⟨-, rfl⟩ | ⟨-, rfl⟩ | ⟨m, w, hw, rfl⟩ |
            ⟨m, w, hw, rfl⟩ | ⟨m, w, hw, -, rfl⟩ <;>
            simp only [Edit.target, reduceCtorEq, Target.update.injEq] at hT
          subst hT
          rw [hv] at hw
          cases hw
          exact hH
    have p8 := hdep.trans h.depression.symm
    have p9 := hmode.trans h.error_mode.symm
    cases s'
    cases t
    simp only at p1 p2 p3 p4 p5 p6 p7 p8 p9
    subst p1 p2 p3 p4 p5 p6 p7 p8 p9
    rfl

/-! ## Reset by hand -/

/-- The tensor of dtype `d` and shape `sh` with entries `f i`. -/
def tensorOf (d : DType) (sh : List Nat) (f : List Nat → α) : Tensor α := ⟨d, ⟨sh, fun i _ => f i⟩⟩

omit [Arith α] in
theorem tensorOf_at? {d : DType} {sh : List Nat} {f : List Nat → α} {β : Type} {b : Tensor β}
    {i : List Nat} {x : β} (hs : b.shape = sh) (hb : b.at? i = some x) :
    (tensorOf d sh f).at? i = some (f i) := by
  have : (b.arr.at? i).isSome := by simp only [Tensor.at?] at hb; rw [hb]; rfl
  have h := Arr.at?_isSome.1 this
  have h' : InB sh i := hs ▸ h
  exact Arr.at?_of_inB (a := ⟨sh, fun i _ => f i⟩) h'

/-- The leaf that results from resetting a leaf. -/
def resetLeafTo (s : ACTStates α) : Leaf α → Leaf α → Leaf α
  | .tensor ta, .tensor td => .tensor (tensorOf ta.dtype ta.shape fun i =>
      Spec.resetEntry s.probabilities.dtype s.epsilon
        ((s.probabilities.at? (i.take s.probabilities.shape.length)).getD Arith.zero)
        ((ta.at? i).getD Arith.zero) ((td.at? i).getD Arith.zero))
  | l, _ => l

/-- The tree that results from resetting a tree. -/
def resetTreeTo (s : ACTStates α) (a d : PyTree (Leaf α)) : PyTree (Leaf α) :=
  match PyTree.treeUnflatten a.treeStructure
      (List.zipWith (resetLeafTo s) a.treeLeaves d.treeLeaves) with
  | .ok t => t
  | .error _ => a

/-- The cell after a reset, read off the three tensors. -/
def resetCellTo (s : ACTStates α) (i : List Nat) : Spec.Cell α :=
  Spec.resetCell s.probabilities.dtype s.iterations.dtype s.epsilon
    ⟨(s.probabilities.at? i).getD Arith.zero, (s.residuals.at? i).getD Arith.zero,
      (s.iterations.at? i).getD Arith.zero⟩

/-- The state after a reset. -/
def resetTo (s : ACTStates α) : ACTStates α :=
  { s with
    probabilities := tensorOf s.probabilities.dtype s.probabilities.shape fun i => (resetCellTo s i).prob
    residuals := tensorOf s.residuals.dtype s.residuals.shape fun i => (resetCellTo s i).resid
    iterations := tensorOf s.iterations.dtype s.iterations.shape fun i => (resetCellTo s i).iter
    accumulators := s.accumulators.map fun nv =>
      (nv.1, resetTreeTo s nv.2 ((s.defaults.get? nv.1).getD .none)) }

theorem get?_mapVals {V W : Type} (f : String → V → W) (n : String) : ∀ d : Dict V,
    Dict.get? (d.map fun nv => (nv.1, f nv.1 nv.2)) n = (d.get? n).map (f n)
  | [] => rfl
  | (m, v) :: d => by
    simp only [List.map_cons, Dict.get?_cons]
    split
    · next h => subst h; rfl
    · exact get?_mapVals f n d

theorem resetTreeTo_spec {s : ACTStates α} {a d : PyTree (Leaf α)} (h : SameType a d) :
    (resetTreeTo s a d).treeStructure = a.treeStructure ∧
    (resetTreeTo s a d).canon = resetTreeTo s a d ∧
    (resetTreeTo s a d).treeLeaves = List.zipWith (resetLeafTo s) a.treeLeaves d.treeLeaves := by
  have hl := h.2.length_eq
  obtain ⟨t, ht⟩ := PyTree.treeUnflatten_ok (d := a.treeStructure)
    (ls := List.zipWith (resetLeafTo s) a.treeLeaves d.treeLeaves)
    (by rw [PyTree.treeStructure_leaves_length, List.length_zipWith]; omega)
  obtain ⟨h1, h2, h3⟩ := PyTree.unflatten_treeStructure ht
  have : resetTreeTo s a d = t := by unfold resetTreeTo; rw [ht]
  rw [this]
  exact ⟨h1, h3, h2⟩

theorem resetTo_step {s : ACTStates α} (hs : s.WF)
    (hidle : ∀ n u, s.updates.get? n = some u → u = .none) : ResetStep s (resetTo s) where
  idle := fun n u h => by rw [hidle n u h]; rfl
  epsilon := rfl
  depression := rfl
  error_mode := rfl
  defaults := rfl
  updates := rfl
  pshape := rfl
  pdtype := rfl
  rshape := rfl
  rdtype := rfl
  ishape := rfl
  idtype := rfl
  akeys := by simp [resetTo, Dict.keys, List.map_map, Function.comp_def]
  cell := by
    intro b p r n hp hr hn
    have e : resetCellTo s b = Spec.resetCell s.probabilities.dtype s.iterations.dtype s.epsilon
        ⟨p, r, n⟩ := by simp [resetCellTo, hp, hr, hn]
    simp only
    rw [← e]
    exact ⟨tensorOf_at? rfl hp, tensorOf_at? rfl hr, tensorOf_at? rfl hn⟩
  tree := by
    intro n a ha
    obtain ⟨d, hd⟩ := Dict.mem_keys_iff.1 ((hs.def_iff n).2 (Dict.mem_keys_iff.2 ⟨a, ha⟩))
    have hsame := hs.same n a d ha hd
    obtain ⟨h1, h2, h3⟩ := resetTreeTo_spec (s := s) hsame
    refine ⟨d, resetTreeTo s a d, hd, ?_, h1, h2, fun k l hl => ?_⟩
    · show Dict.get? (s.accumulators.map fun nv =>
        (nv.1, resetTreeTo s nv.2 ((s.defaults.get? nv.1).getD .none))) n = _
      rw [get?_mapVals (fun m v => resetTreeTo s v ((s.defaults.get? m).getD .none)), ha, hd]
      rfl
    · obtain ⟨hk, hkt⟩ := List.getElem?_eq_some_iff.1 hl
      have hkd : k < d.treeLeaves.length := hsame.2.length_eq ▸ hk
      obtain ⟨ta, td, g1, g2, g3, -⟩ := (List.forall₂_iff_get.1 hsame.2).2 k hk hkd
      simp only [List.get_eq_getElem] at g1 g2
      rw [g1] at hkt
      subst hkt
      refine ⟨ta, td, tensorOf ta.dtype ta.shape fun i =>
        Spec.resetEntry s.probabilities.dtype s.epsilon
          ((s.probabilities.at? (i.take s.probabilities.shape.length)).getD Arith.zero)
          ((ta.at? i).getD Arith.zero) ((td.at? i).getD Arith.zero),
        rfl, by rw [List.getElem?_eq_getElem hkd, g2], ?_, ?_⟩
      · rw [h3, List.getElem?_zipWith, hl, List.getElem?_eq_getElem hkd, g2]
        rfl
      · refine ⟨rfl, rfl, fun i x y p hx hy hp => ?_⟩
        rw [tensorOf_at? (b := ta) rfl hx, hp, hx, hy]
        rfl

/-- `reset_batches` has one possible result. -/
theorem ResetStep.unique {s t t' : ACTStates α} (hs : s.WF) (h : ResetStep s t)
    (h' : ResetStep s t') : t = t' := by
  obtain ⟨c1, c2, c3⟩ := h.core_eq hs h' rfl rfl rfl rfl
  have w' := Controller.ResetStep.wf hs h'
  have ha : t.accumulators = t'.accumulators := by
    refine Dict.ext_get? w'.acc_keys (h.akeys.trans h'.akeys.symm) fun n => ?_
    cases hg : s.accumulators.get? n with
    | none =>
      rw [Dict.get?_eq_none_iff] at hg
      rw [Dict.get?_eq_none_iff.2 (by rw [h.akeys]; exact hg),
        Dict.get?_eq_none_iff.2 (by rw [h'.akeys]; exact hg)]
    | some a =>
      obtain ⟨d, x, -, e2, e3, e4, -⟩ := h.tree n a hg
      obtain ⟨d', y, -, f2, f3, f4, -⟩ := h'.tree n a hg
      rw [e2, f2]
      congr 1
      rw [← e4, ← f4]
      refine PyTree.eq_of_struct_leaves (e3.trans f3.symm) (List.ext_getElem? fun k => ?_)
      have e : SameLeaf n k n k s s := ⟨rfl, rfl, rfl, rfl, rfl, rfl, rfl, rfl⟩
      have := (e.reset hs hs h h').acc
      simp only [leaf?, e2, f2] at this
      exact this
  have q1 := h.epsilon.trans h'.epsilon.symm
  have q2 := h.depression.trans h'.depression.symm
  have q3 := h.error_mode.trans h'.error_mode.symm
  have q4 := h.defaults.trans h'.defaults.symm
  have q5 := h.updates.trans h'.updates.symm
  cases t
  cases t'
  simp only at c1 c2 c3 ha q1 q2 q3 q4 q5
  subst c1 c2 c3 ha q1 q2 q3 q4 q5
  rfl

section Exact
variable {K : Type} [Field K] [LinearOrder K] [IsStrictOrderedRing K]
attribute [local instance] Arith.exact

/-- C94: what `reset_batches` should do can be done with an editor in standard mode, for every kind of
accumulator (`reset_batches` itself raises `AttributeError` for containers, `C16_containers_raise`).  For
a controller without pending updates whose tensors are in range there are edits, all accepted, after which
halted elements have probability, residual and counter 0 and their accumulator entries are the defaults,
while nothing else is changed.  Where `reset_batches` works the resulting controller is the same. -/
theorem C94_manual_reset {s : ACTStates K} (hs : s.WF) (hn : s.NoNone)
    (hidle : ∀ n u, s.updates.get? n = some u → u = .none)
    (hp : ∀ b p, s.probabilities.at? b = some p → 0 ≤ p ∧ p ≤ 1)
    (hr : ∀ b r, s.residuals.at? b = some r → 0 ≤ r ∧ r ≤ 1)
    (hi : ∀ b n, s.iterations.at? b = some n → 0 ≤ n) :
    ∃ (eds : List (Edit K)) (e' : Editor K), (∀ ed ∈ eds, ed.NoNone) ∧
      runEdits ⟨s, "standard"⟩ eds = .ok e' ∧
      (∀ b, (Controller.haltedBatches ⟨s⟩).at? b = some true →
        e'.probabilities.at? b = some 0 ∧ e'.residuals.at? b = some 0 ∧
        e'.iterations.at? b = some 0) ∧
      (∀ b, (Controller.haltedBatches ⟨s⟩).at? b = some false →
        e'.probabilities.at? b = s.probabilities.at? b ∧
        e'.residuals.at? b = s.residuals.at? b ∧ e'.iterations.at? b = s.iterations.at? b) ∧
      (∀ n k i a, entry? s.accumulators n k i = some a →
        let halted := (Controller.haltedBatches ⟨s⟩).at? (i.take s.probabilities.shape.length)
        (halted = some true ∧ entry? e'.accumulators n k i = entry? s.defaults n k i ∧
          entry? s.defaults n k i ≠ none) ∨
        (halted = some false ∧ entry? e'.accumulators n k i = some a)) ∧
      e'.accumulators.keys = s.accumulators.keys ∧ e'.defaults = s.defaults ∧
      e'.updates = s.updates ∧ e'.epsilon = s.epsilon ∧
      ∀ c', Controller.resetBatches ⟨s⟩ = .ok c' → c' = e'.build := by
  have st := resetTo_step hs hidle
  have w := Controller.ResetStep.wf hs st
  have cells : ∀ b p, s.probabilities.at? b = some p → ∃ r n, s.residuals.at? b = some r ∧
      s.iterations.at? b = some n ∧
      let u := !Spec.isHalted s.probabilities.dtype s.epsilon p
      (resetTo s).probabilities.at? b = some (if u then p else 0) ∧
      (resetTo s).residuals.at? b = some (if u then r else 0) ∧
      (resetTo s).iterations.at? b = some (if u then n else 0) := by
    intro b p hb
    obtain ⟨r, n, h1, h2⟩ := hs.cell hb
    have := st.cell b p r n hb h1 h2
    simp only [Spec.resetCell, Spec.keepIf_eq] at this
    exact ⟨r, n, h1, h2, this⟩
  have hE : Editable s (resetTo s) := by
    have lt0 : ∀ {x : K}, 0 ≤ x → Arith.lt x (Arith.zero : K) = false := by
      intro x hx
      show decide (x < 0) = false
      simpa using hx
    have lt1 : ∀ {x : K}, x ≤ 1 → Arith.lt (Arith.one : K) x = false := by
      intro x hx
      show decide (1 < x) = false
      simpa using hx
    refine ⟨rfl, rfl, .inl rfl, .inr ⟨rfl, rfl, fun i x hx => ?_⟩, .inr ⟨rfl, rfl, fun i x hx => ?_⟩,
      .inr ⟨rfl, rfl, fun i x hx => ?_⟩, ⟨st.akeys, fun n v hv => ?_⟩, ⟨rfl, fun n v hv => ?_⟩, rfl,
      fun n v hv => .inl hv⟩
    · obtain ⟨p, hb⟩ := st.index hx
      obtain ⟨r, n, -, -, h1, -, -⟩ := cells i p hb
      rw [h1] at hx
      obtain ⟨g1, g2⟩ := hp i p hb
      cases hx
      split
      · exact ⟨lt0 g1, lt1 g2⟩
      · exact ⟨lt0 le_rfl, lt1 zero_le_one⟩
    · obtain ⟨p, hb⟩ := Controller.at?_some_of_shape (b := s.probabilities)
        (by rw [st.rshape, hs.res_shape]) hx
      obtain ⟨r, n, k1, -, -, h1, -⟩ := cells i p hb
      rw [h1] at hx
      obtain ⟨g1, g2⟩ := hr i r k1
      cases hx
      split
      · exact ⟨lt0 g1, lt1 g2⟩
      · exact ⟨lt0 le_rfl, lt1 zero_le_one⟩
    · obtain ⟨p, hb⟩ := Controller.at?_some_of_shape (b := s.probabilities)
        (by rw [st.ishape, hs.it_shape]) hx
      obtain ⟨r, n, -, k1, -, -, h1⟩ := cells i p hb
      rw [h1] at hx
      have g1 := hi i n k1
      cases hx
      show decide (0 ≤ _) = true
      rw [decide_eq_true_iff]
      split
      · exact g1
      · exact le_rfl
    · have hk : n ∈ s.accumulators.keys := by rw [← st.akeys]; exact Dict.mem_keys_iff.2 ⟨v, hv⟩
      obtain ⟨a, ha⟩ := Dict.mem_keys_iff.1 hk
      obtain ⟨d, a', -, h2, h3, h4, h5⟩ := st.tree n a ha
      rw [hv] at h2
      cases h2
      refine ⟨?_, a, ha, SameType.of_leaves h3 fun k l hl => ?_⟩
      · have := PyTree.noNone_canon a (hn.1 n a ha)
        rw [← noNone_struct] at this
        have h3' : v.struct = a.canon.struct := by
          have := h3
          unfold PyTree.treeStructure at this
          rw [h4] at this
          exact this
        rw [← noNone_struct, h3']
        exact this
      · obtain ⟨ta, td, ta', e1, -, e3, e4⟩ := h5 k l hl
        exact ⟨ta, ta', e1, e3, e4.shape, e4.dtype⟩
    · obtain ⟨a, ha⟩ := Dict.mem_keys_iff.1 ((hs.def_iff n).1 (Dict.mem_keys_iff.2 ⟨v, hv⟩))
      exact ⟨hn.2 n v hv, a, ha, hs.same n a v ha hv⟩
  obtain ⟨eds, hno, hrun⟩ := (C94_reachable_iff hs hn).2 hE
  refine ⟨eds, ⟨resetTo s, "standard"⟩, hno, hrun, fun b hb => ?_, fun b hb => ?_, fun n k i a ha => ?_,
    st.akeys, rfl, rfl, rfl, fun c' hc => ?_⟩
  · obtain ⟨p, h1, h2⟩ := (halted_iff hs.floating).1 hb
    obtain ⟨r, n, -, -, h3⟩ := cells b p h1
    simp only [h2, Bool.not_true, Bool.false_eq_true, if_false] at h3
    exact h3
  · obtain ⟨p, h1, h2⟩ := (halted_iff hs.floating).1 hb
    obtain ⟨r, n, h4, h5, h3⟩ := cells b p h1
    rw [h1, h4, h5]
    simp only [h2, Bool.not_false, if_true] at h3
    exact h3
  · obtain ⟨x, p, h1, h2, h3⟩ := st.entry hs ha
    have hh : (Controller.haltedBatches ⟨s⟩).at? (i.take s.probabilities.shape.length) =
        some (Spec.isHalted s.probabilities.dtype s.epsilon p) :=
      (halted_iff hs.floating).2 ⟨p, h2, rfl⟩
    simp only
    rw [hh]
    unfold Spec.resetEntry at h3
    cases hq : Spec.isHalted s.probabilities.dtype s.epsilon p
    · rw [hq, if_neg (by simp)] at h3
      exact .inr ⟨rfl, h3⟩
    · rw [hq, if_pos rfl] at h3
      refine .inl ⟨rfl, ?_, by rw [h1]; simp⟩
      rw [h1]
      exact h3
  · have := (Controller.resetBatches_ok hs hc).unique hs st
    obtain ⟨c⟩ := c'
    simp only at this
    rw [this]
    rfl

end Exact

section Examples
open Fixtures
attribute [local instance] Arith.exact

/-- `fresh` after a round in which its second element halts. -/
def halfHalted : ACTStates ℚ :=
  { fresh with
    probabilities := vec [1/2, 1]
    residuals := vec [0, 1]
    iterations := vec [1, 1]
    accumulators := [("out", bare (col 2 6)), ("tree", pair (vec [2, 6]) (col 4 5))] }

theorem halfHalted_wf : halfHalted.WF := by
  have hb : ∀ n t, halfHalted.accumulators.get? n = some t → Batched [2] t := by
    intro n t h
    rcases get?_two h with ⟨-, rfl⟩ | ⟨-, rfl⟩
    · exact batched_bare _ _ rfl ⟨[1], rfl⟩
    · exact batched_pair _ _ _ rfl ⟨[], rfl⟩ rfl ⟨[1], rfl⟩
  exact
    { floating := rfl, res_shape := rfl, res_dtype := rfl, it_shape := rfl, it_dtype := by decide
      acc_keys := by unfold Dict.WF; decide
      def_keys := by unfold Dict.WF; decide
      upd_keys := by unfold Dict.WF; decide
      def_iff := fun n => Iff.rfl
      upd_iff := fun n => Iff.rfl
      batched := hb
      same := by
        intro n t u h1 h2
        rcases get?_two h1 with ⟨rfl, rfl⟩ | ⟨rfl, rfl⟩
        · cases h2
          exact ⟨rfl, .cons ⟨_, _, rfl, rfl, rfl, rfl⟩ .nil⟩
        · cases h2
          exact ⟨rfl, .cons ⟨_, _, rfl, rfl, rfl, rfl⟩ (.cons ⟨_, _, rfl, rfl, rfl, rfl⟩ .nil)⟩ }

/-- The hypotheses of `C94_manual_reset` are met by a controller on which `reset_batches` raises, and the
edits a user would write for it are accepted and give the reset state. -/
theorem C94_manual_reset_example :
    halfHalted.WF ∧ halfHalted.NoNone ∧
    (∀ n u, halfHalted.updates.get? n = some u → u = .none) ∧
    raised (Controller.resetBatches ⟨halfHalted⟩) = some .attributeError ∧
    ((runEdits ⟨halfHalted, "standard"⟩ [.probabilities (vec [1/2, 0]), .residuals (vec [0, 0]),
        .iterations (vec [1, 0]), .accumulator "out" (bare (col 2 0)),
        .accumulator "tree" (pair (vec [2, 0]) (col 4 1))]).toOption.map fun e =>
      (e.probabilities.at? [1], entry? e.accumulators "tree" 1 [0, 0],
        entry? e.accumulators "tree" 1 [1, 0])) = some (some 0, some 4, some 1) := by
  refine ⟨halfHalted_wf, ⟨?_, ?_⟩, ?_, by decide +kernel, by decide +kernel⟩
  · intro n t ht
    rcases get?_two ht with ⟨-, rfl⟩ | ⟨-, rfl⟩
    · exact trivial
    · exact ⟨trivial, trivial, trivial⟩
  · intro n t ht
    rcases get?_two ht with ⟨-, rfl⟩ | ⟨-, rfl⟩
    · exact trivial
    · exact ⟨trivial, trivial, trivial⟩
  · intro n u hu
    rcases get?_two hu with ⟨-, rfl⟩ | ⟨-, rfl⟩ <;> rfl

/-- The tensors of the example are in range. -/
theorem C94_manual_reset_example_ranges :
    (∀ b p, halfHalted.probabilities.at? b = some p → 0 ≤ p ∧ p ≤ 1) ∧
    (∀ b r, halfHalted.residuals.at? b = some r → 0 ≤ r ∧ r ≤ 1) ∧
    (∀ b n, halfHalted.iterations.at? b = some n → 0 ≤ n) := by
  have key : ∀ (x y : ℚ) b p, (vec [x, y]).at? b = some p → p = x ∨ p = y := by
    intro x y b p h
    have hb : InB [2] b := (Arr.at?_isSome (a := (vec [x, y]).arr)).1 (by
      simp only [Tensor.at?] at h; rw [h]; rfl)
    have h' : some ([x, y].getD (b.headD 0) 0) = some p :=
      (Arr.at?_of_inB (a := (vec [x, y]).arr) hb).symm.trans h
    obtain ⟨k, j, rfl, hk, -⟩ := inB_cons.1 hb
    cases h'
    rcases k with _ | _ | k
    · exact .inl rfl
    · exact .inr rfl
    · omega
  refine ⟨fun b p h => ?_, fun b p h => ?_, fun b p h => ?_⟩ <;>
    rcases key _ _ b p h with rfl | rfl <;> norm_num

end Examples

end JaxAct
