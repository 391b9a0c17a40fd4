import Verif.Lemmas.HeapView

/-! # Which dictionaries the result of a method shares with the object it was called on -/

namespace JaxAct.Mem
variable {α β γ : Type}

/-- The results of a computation made after `h0` are objects whose state object and attributes
satisfy `Q`. -/
def Ends (h0 : Heap α) (m : M α Ref) (Q : Ref → StateObj α → Prop) : Prop :=
  ∀ h, Ext h0 h → h0.length ≤ h.length → ∀ r, (m.exec h).1 = .ok r → ∃ c st s,
    (m.exec h).2[r]? = some (.obj c (some st)) ∧ (m.exec h).2[st]? = some (.state s) ∧ Q st s

namespace Ends
variable {h0 : Heap α} {Q : Ref → StateObj α → Prop}

theorem bind {m : M α β} {f : β → M α Ref} {P : β → Prop} (hm : Safe h0.length m P)
    (hf : ∀ v, P v → Ends h0 (f v) Q) : Ends h0 (m >>= f) Q := by
  intro h he hl r hr
  obtain ⟨h1, h2, h3⟩ := hm.all h hl
  rw [exec_bind] at hr ⊢
  cases hx : m.exec h with
  | mk v h' =>
    rw [hx] at h1 h2 h3
    cases v with
    | error e => rw [hx] at hr; cases hr
    | ok v =>
      simp only [hx] at hr ⊢
      refine hf v (h3 v rfl) h' (fun i c hi => ?_) h2 r hr
      rw [h1 i (lt_of_some hi)]; exact he i c hi

theorem getState {self st : Ref} {c : Cls} (hs : h0[self]? = some (.obj c (some st)))
    {f : Ref → M α Ref} (hf : Ends h0 (f st) Q) : Ends h0 (Mem.getState self >>= f) Q := by
  intro h he hl r hr
  rw [exec_bind, exec_getState (he _ _ hs)] at hr ⊢
  exact hf h he hl r hr

theorem readState {st : Ref} {s : StateObj α} (hs : h0[st]? = some (.state s))
    {f : StateObj α → M α Ref} (hf : Ends h0 (f s) Q) : Ends h0 (Mem.readState st >>= f) Q := by
  intro h he hl r hr
  rw [exec_bind, exec_readState (he _ _ hs)] at hr ⊢
  exact hf h he hl r hr

theorem raise (e : Err) : Ends h0 (Mem.pureRes (JaxAct.raise e)) Q :=
  fun _ _ _ _ hr => by cases hr

theorem ite {p : Prop} [Decidable p] {m m' : M α Ref} (h1 : Ends h0 m Q) (h2 : Ends h0 m' Q) :
    Ends h0 (if p then m else m') Q := by
  split
  · exact h1
  · exact h2

/-- The object is made from a state object that exists. -/
theorem newObj (c : Cls) {st : Ref} {s : StateObj α} (hs : h0[st]? = some (.state s))
    (hQ : Q st s) : Ends h0 (Mem.newObj c st) Q := by
  intro h he hl r hr
  rw [exec_newObj] at hr ⊢
  obtain rfl : h.length = r := by injection hr
  refine ⟨c, st, s, get_last _, ?_, hQ⟩
  rw [List.getElem?_append_left (lt_of_some (he _ _ hs))]
  exact he _ _ hs

/-- A new state object and a new object, whose class is computed in between. -/
theorem replaceThen {st : Ref} {s : StateObj α} (hs : h0[st]? = some (.state s)) (e : Option α)
    (i r p : Option (Tensor α)) (a d u : Option Ref) {g : Ref → M α Ref}
    (hg : ∀ (h : Heap α) (x : Ref), Ext h0 h →
      (∃ cls, (g x).exec h = (Mem.newObj cls x).exec h) ∨ ∃ er, ((g x).exec h).1 = .error er)
    (hQ : ∀ st' s', h0.length ≤ st' → s'.defaults = d.getD s.defaults →
      s'.accumulators = a.getD s.accumulators → s'.updates = u.getD s.updates → Q st' s') :
    Ends h0 (Mem.replace st e i r p a d u none none >>= g) Q := by
  intro h he hl x hx
  rw [exec_bind] at hx ⊢
  unfold Mem.replace at hx ⊢
  rw [exec_bind, exec_readState (he _ _ hs)] at hx ⊢
  simp only [exec_alloc] at hx ⊢
  have he' := he.trans (Ext.append h [Cell.state
    { epsilon := e.getD s.epsilon, iterations := i.getD s.iterations,
      residuals := r.getD s.residuals, probabilities := p.getD s.probabilities,
      defaults := d.getD s.defaults, accumulators := a.getD s.accumulators,
      updates := u.getD s.updates, depression_constant := s.depression_constant,
      error_mode := s.error_mode }])
  rcases hg _ h.length he' with ⟨cls, hcls⟩ | ⟨er, her⟩
  · rw [hcls, exec_newObj] at hx ⊢
    obtain rfl : _ = x := by injection hx
    refine ⟨cls, h.length, _, get_last _, ?_, hQ h.length
      { epsilon := e.getD s.epsilon, iterations := i.getD s.iterations,
        residuals := r.getD s.residuals, probabilities := p.getD s.probabilities,
        defaults := d.getD s.defaults, accumulators := a.getD s.accumulators,
        updates := u.getD s.updates, depression_constant := s.depression_constant,
        error_mode := s.error_mode } hl rfl rfl rfl⟩
    rw [List.getElem?_append_left (by simp)]
    exact get_last _
  · rw [her] at hx; cases hx

/-- The class is fixed. -/
theorem replaceObj {st : Ref} {s : StateObj α} (hs : h0[st]? = some (.state s)) (e : Option α)
    (i r p : Option (Tensor α)) (a d u : Option Ref) (cls : Cls)
    (hQ : ∀ st' s', h0.length ≤ st' → s'.defaults = d.getD s.defaults →
      s'.accumulators = a.getD s.accumulators → s'.updates = u.getD s.updates → Q st' s') :
    Ends h0 (Mem.replace st e i r p a d u none none >>= Mem.newObj cls) Q :=
  replaceThen hs e i r p a d u (fun _ _ _ => Or.inl ⟨cls, rfl⟩) hQ

/-- The end of every setter of the editor. -/
theorem replaceEditor {st self : Ref} {s : StateObj α} (hs : h0[st]? = some (.state s))
    (e : Option α) (i r p : Option (Tensor α)) (a d u : Option Ref)
    (hQ : ∀ st' s', h0.length ≤ st' → s'.defaults = d.getD s.defaults →
      s'.accumulators = a.getD s.accumulators → s'.updates = u.getD s.updates → Q st' s') :
    Ends h0 (Mem.replace st e i r p a d u none none >>= fun x =>
      Mem.getErrorMode self >>= fun mode => Mem.newObj (.editor mode) x) Q := by
  refine replaceThen hs e i r p a d u (fun h x _ => ?_) hQ
  rw [exec_bind]
  cases hm : (Mem.getErrorMode self).exec h with
  | mk v h' =>
    have : h' = h := by
      have : ((Mem.getErrorMode self).exec h).2 = h := by
        simp only [M.exec, Mem.getErrorMode]; split <;> rfl
      rw [hm] at this; exact this
    cases v with
    | ok mode => exact Or.inl ⟨.editor mode, by rw [this]⟩
    | error er => exact Or.inr ⟨er, rfl⟩

end Ends
end JaxAct.Mem
