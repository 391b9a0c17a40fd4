import Verif.Props.C53
import Verif.Lemmas.History
import Verif.Lemmas.Sorted

/-!
# The same calls in two arithmetics

If two arithmetics agree on the bookkeeping of single batch elements, they agree on the bookkeeping of
histories of calls.
-/

namespace JaxAct
variable {α : Type}

/-- The same bookkeeping, pending updates and defaults. -/
structure SameBook (s t : ACTStates α) : Prop where
  probabilities : t.probabilities = s.probabilities
  residuals : t.residuals = s.residuals
  iterations : t.iterations = s.iterations
  epsilon : t.epsilon = s.epsilon
  depression : t.depression_constant = s.depression_constant
  updates : ∀ n, t.updates.get? n = s.updates.get? n
  defaults : t.defaults = s.defaults

/-- What is stored for every batch element satisfies `I`. -/
def CellsSat (I : Spec.Cell α → Prop) (s : ACTStates α) : Prop :=
  ∀ b p r n, s.probabilities.at? b = some p → s.residuals.at? b = some r → s.iterations.at? b = some n →
    I ⟨p, r, n⟩

/-- The two arithmetics agree on cells that satisfy `I` and halting probabilities that satisfy `H`, and
`I` is kept. -/
structure StepsAgree (A B : Arith α) (d dI : DType) (eps dep : α) (I : Spec.Cell α → Prop)
    (H : α → Prop) : Prop where
  step : ∀ c x, I c → H x → @Spec.step α A d dI eps dep c x = @Spec.step α B d dI eps dep c x ∧
    I (@Spec.step α A d dI eps dep c x)
  reset : ∀ c, I c → @Spec.resetCell α A d dI eps c = @Spec.resetCell α B d dI eps c ∧
    I (@Spec.resetCell α A d dI eps c)

theorem CallsAlike.refl (op : Op α) : CallsAlike op op := by
  cases op with
  | cache n t => exact .cache n (TreesAlike.refl _)
  | iterate h => exact .iterate ⟨rfl, rfl⟩
  | reset => exact .reset

/-- The types of what is stored for the batch elements. -/
def SameBookTypes (s c : ACTStates α) : Prop :=
  c.probabilities.shape = s.probabilities.shape ∧ c.probabilities.dtype = s.probabilities.dtype ∧
  c.residuals.shape = s.residuals.shape ∧ c.residuals.dtype = s.residuals.dtype ∧
  c.iterations.shape = s.iterations.shape ∧ c.iterations.dtype = s.iterations.dtype

/-- Two states whose batch elements are computed alike from two states with the same bookkeeping. -/
theorem sameBook_of_cells {I : Spec.Cell α → Prop} {s t c e : ACTStates α} (hs : s.WF)
    (hbk : SameBook s t)
    (hc : c.epsilon = s.epsilon ∧ c.depression_constant = s.depression_constant)
    (he : e.epsilon = t.epsilon ∧ e.depression_constant = t.depression_constant)
    (hdf : c.defaults = s.defaults ∧ e.defaults = t.defaults)
    (tc : SameBookTypes s c) (te : SameBookTypes t e) (hu : ∀ n, e.updates.get? n = c.updates.get? n)
    (hcell : ∀ b p r n, s.probabilities.at? b = some p → s.residuals.at? b = some r →
      s.iterations.at? b = some n → ∃ k : Spec.Cell α, I k ∧
        (c.probabilities.at? b = some k.prob ∧ c.residuals.at? b = some k.resid ∧
          c.iterations.at? b = some k.iter) ∧
        (e.probabilities.at? b = some k.prob ∧ e.residuals.at? b = some k.resid ∧
          e.iterations.at? b = some k.iter)) :
    SameBook c e ∧ CellsSat I c ∧ c.probabilities.dtype = s.probabilities.dtype ∧
      c.iterations.dtype = s.iterations.dtype ∧ c.epsilon = s.epsilon ∧
      c.depression_constant = s.depression_constant := by
  obtain ⟨ps, pd, rs, rd, is, id⟩ := tc
  obtain ⟨ps', pd', rs', rd', is', id'⟩ := te
  rw [hbk.probabilities] at ps' pd'
  rw [hbk.residuals] at rs' rd'
  rw [hbk.iterations] at is' id'
  have key : ∀ b, (e.probabilities.at? b = c.probabilities.at? b ∧
      e.residuals.at? b = c.residuals.at? b ∧ e.iterations.at? b = c.iterations.at? b) ∧
      ∀ p r n, c.probabilities.at? b = some p → c.residuals.at? b = some r →
        c.iterations.at? b = some n → I ⟨p, r, n⟩ := by
    intro b
    by_cases hb : InB s.probabilities.shape b
    · obtain ⟨p, hp⟩ := Option.isSome_iff_exists.1 (Arr.at?_isSome (a := s.probabilities.arr).2 hb)
      obtain ⟨r, hr⟩ := Option.isSome_iff_exists.1
        (Arr.at?_isSome (a := s.residuals.arr).2 ((show s.residuals.arr.shape = _ from hs.res_shape) ▸ hb))
      obtain ⟨n, hn⟩ := Option.isSome_iff_exists.1
        (Arr.at?_isSome (a := s.iterations.arr).2 ((show s.iterations.arr.shape = _ from hs.it_shape) ▸ hb))
      obtain ⟨k, hk, ⟨a1, a2, a3⟩, b1, b2, b3⟩ := hcell b p r n hp hr hn
      refine ⟨⟨a1 ▸ b1, a2 ▸ b2, a3 ▸ b3⟩, fun p' r' n' h1 h2 h3 => ?_⟩
      rw [a1] at h1; rw [a2] at h2; rw [a3] at h3
      cases h1; cases h2; cases h3
      exact hk
    · have none : ∀ {x : Tensor α}, x.shape = s.probabilities.shape → x.at? b = none := fun {x} hx => by
        by_contra h
        exact hb (hx ▸ Arr.at?_isSome.1 (Option.isSome_iff_ne_none.2 h))
      rw [none ps, none (rs.trans hs.res_shape), none (is.trans hs.it_shape), none ps',
        none (rs'.trans hs.res_shape), none (is'.trans hs.it_shape)]
      exact ⟨⟨rfl, rfl, rfl⟩, fun p r n h => by cases h⟩
  refine ⟨⟨?_, ?_, ?_, ?_, ?_, hu, ?_⟩, fun b p r n => (key b).2 p r n, pd, id, hc.1, hc.2⟩
  · exact Tensor.ext_at (pd'.trans pd.symm) (ps'.trans ps.symm) fun b => (key b).1.1
  · exact Tensor.ext_at (rd'.trans rd.symm) (rs'.trans rs.symm) fun b => (key b).1.2.1
  · exact Tensor.ext_at (id'.trans id.symm) (is'.trans is.symm) fun b => (key b).1.2.2
  · rw [he.1, hc.1, hbk.epsilon]
  · rw [he.2, hc.2, hbk.depression]
  · rw [hdf.1, hdf.2, hbk.defaults]

/-- One call. -/
theorem call_two_ariths {A B : Arith α} {d dI : DType} {eps dep : α} {I : Spec.Cell α → Prop} {H : α → Prop}
    (hAB : StepsAgree A B d dI eps dep I H) {s t : ACTStates α} (hs : s.WF) (ht : t.WF)
    (hal : StatesAlike s t) (hbk : SameBook s t) (hd : s.probabilities.dtype = d)
    (hdI : s.iterations.dtype = dI) (heps : s.epsilon = eps) (hdep : s.depression_constant = dep)
    (hI : CellsSat I s) {op : Op α}
    (hop : ∀ h, op = .iterate h → h.dtype = d ∧ ∀ b x, h.at? b = some x → H x)
    {c e : Controller α} (hc : @Op.call α A ⟨s⟩ op = .ok c) (he : @Op.call α B ⟨t⟩ op = .ok e) :
    SameBook c.state e.state ∧ CellsSat I c.state ∧ c.state.probabilities.dtype = d ∧
      c.state.iterations.dtype = dI ∧ c.state.epsilon = eps ∧ c.state.depression_constant = dep := by
  subst hd hdI heps hdep
  cases op with
  | cache n u =>
    have st := Controller.cacheUpdate_ok_iff.1 hc
    have st' := Controller.cacheUpdate_ok_iff.1 he
    rw [st.eq, st'.eq]
    exact ⟨⟨hbk.probabilities, hbk.residuals, hbk.iterations, hbk.epsilon, hbk.depression,
      fun m => by rw [Dict.get?_set, Dict.get?_set, hbk.updates], hbk.defaults⟩, hI, rfl, rfl, rfl, rfl⟩
  | iterate h =>
    obtain ⟨hhd, hH⟩ := hop h rfl
    obtain ⟨hsh, -, f1, f2, -, f3, ps, pd, rs, rd, is, id, ak, uk, cl, cell, -⟩ :=
      @Controller.iterateAct_ok α A _ hs _ _ hc
    obtain ⟨-, -, g1, g2, -, g3, ps', pd', rs', rd', is', id', ak', uk', cl', cell', -⟩ :=
      @Controller.iterateAct_ok α B _ ht _ _ he
    refine sameBook_of_cells hs hbk ⟨f1, f2⟩ ⟨g1, g2⟩ ⟨f3, g3⟩ ⟨ps, pd, rs, rd, is, id⟩
      ⟨ps', pd', rs', rd', is', id'⟩ (fun m => ?_) ?_
    · by_cases hm : m ∈ s.accumulators.keys
      · rw [cl m hm, cl' m ((hal.accumulators.keys_iff m).1 hm)]
      · have h1 : m ∉ c.state.updates.keys := by rw [uk, hs.upd_iff]; exact hm
        have h2 : m ∉ e.state.updates.keys := by
          rw [uk', ht.upd_iff]; exact fun h => hm ((hal.accumulators.keys_iff m).2 h)
        rw [Dict.mem_keys_iff] at h1 h2
        rw [Option.eq_none_iff_forall_ne_some.2 fun v hv => h1 ⟨v, hv⟩,
          Option.eq_none_iff_forall_ne_some.2 fun v hv => h2 ⟨v, hv⟩]
    · intro b p r n hp hr hn
      obtain ⟨x, hx⟩ : ∃ x, h.at? b = some x := by
        have : (s.probabilities.arr.at? b).isSome := by simp only [Tensor.at?] at hp; rw [hp]; rfl
        have h2 := Arr.at?_isSome.1 this
        simp only [Tensor.shape] at hsh
        exact Option.isSome_iff_exists.1 (Arr.at?_isSome.2 (hsh ▸ h2))
      have c1 := cell b p r n x hp hr hn hx
      have c2 := cell' b p r n x (by rw [hbk.probabilities]; exact hp)
        (by rw [hbk.residuals]; exact hr) (by rw [hbk.iterations]; exact hn) hx
      rw [hbk.probabilities, hbk.iterations, hbk.epsilon, hbk.depression] at c2
      simp only [convS, if_pos hhd] at c1 c2
      obtain ⟨e1, e2⟩ := hAB.step ⟨p, r, n⟩ x (hI b p r n hp hr hn) (hH b x hx)
      rw [← e1] at c2
      exact ⟨_, e2, c1, c2⟩
  | reset =>
    obtain ⟨-, f1, f2, -, f3, uk, ps, pd, rs, rd, is, id, -, cell, -⟩ :=
      @Controller.resetBatches_ok α A _ hs _ hc
    obtain ⟨-, g1, g2, -, g3, uk', ps', pd', rs', rd', is', id', -, cell', -⟩ :=
      @Controller.resetBatches_ok α B _ ht _ he
    refine sameBook_of_cells hs hbk ⟨f1, f2⟩ ⟨g1, g2⟩ ⟨f3, g3⟩ ⟨ps, pd, rs, rd, is, id⟩
      ⟨ps', pd', rs', rd', is', id'⟩ (fun m => by rw [uk, uk', hbk.updates]) ?_
    intro b p r n hp hr hn
    have c1 := cell b p r n hp hr hn
    have c2 := cell' b p r n (by rw [hbk.probabilities]; exact hp)
      (by rw [hbk.residuals]; exact hr) (by rw [hbk.iterations]; exact hn)
    rw [hbk.probabilities, hbk.iterations, hbk.epsilon] at c2
    obtain ⟨e1, e2⟩ := hAB.reset ⟨p, r, n⟩ (hI b p r n hp hr hn)
    simp only at c1 c2
    rw [← e1] at c2
    exact ⟨_, e2, c1, c2⟩

/-- A history of calls. -/
theorem run_two_ariths {A B : Arith α} {d dI : DType} {eps dep : α} {I : Spec.Cell α → Prop} {H : α → Prop}
    (hAB : StepsAgree A B d dI eps dep I H) : ∀ (ops : List (Op α)) {s t : ACTStates α}, s.WF → t.WF →
    StatesAlike s t → SameBook s t → s.probabilities.dtype = d → s.iterations.dtype = dI →
    s.epsilon = eps → s.depression_constant = dep → CellsSat I s →
    (∀ h, .iterate h ∈ ops → h.dtype = d ∧ ∀ b x, h.at? b = some x → H x) →
    (∃ e, @run α A ⟨s⟩ ops = .error e ∧ @run α B ⟨t⟩ ops = .error e) ∨
    (∃ c e, @run α A ⟨s⟩ ops = .ok c ∧ @run α B ⟨t⟩ ops = .ok e ∧ StatesAlike c.state e.state ∧
      SameBook c.state e.state ∧ CellsSat I c.state ∧ c.state.probabilities.dtype = d ∧
      c.state.epsilon = eps)
  | [], s, t, _, _, hal, hbk, hd, _, heps, _, hI, _ => .inr ⟨⟨s⟩, ⟨t⟩, rfl, rfl, hal, hbk, hI, hd, heps⟩
  | op :: ops, s, t, hs, ht, hal, hbk, hd, hdI, heps, hdep, hI, hops => by
    have hca := @call_alike α α A B s t hs ht hal op op (CallsAlike.refl op)
    unfold run
    cases h1 : @Op.call α A ⟨s⟩ op with
    | error x =>
      rw [h1] at hca
      cases h2 : @Op.call α B ⟨t⟩ op with
      | error y => rw [h2] at hca; cases hca; exact .inl ⟨x, rfl, rfl⟩
      | ok y => rw [h2] at hca; cases hca
    | ok c =>
      rw [h1] at hca
      cases h2 : @Op.call α B ⟨t⟩ op with
      | error y => rw [h2] at hca; cases hca
      | ok e =>
        rw [h2] at hca
        cases hca with
        | ok hal' =>
          obtain ⟨k1, k2, k3, k4, k5, k6⟩ := call_two_ariths hAB hs ht hal hbk hd hdI heps hdep hI
            (fun h hh => hops h (by rw [hh]; simp)) h1 h2
          exact run_two_ariths hAB ops (@call_wf α A _ hs _ _ h1) (@call_wf α B _ ht _ _ h2) hal' k1 k3 k4 k5 k6 k2
            fun h hh => hops h (List.mem_cons_of_mem _ hh)

end JaxAct
