import Verif.Lemmas.Heap
import Verif.Spec.Heap

/-! # The heap methods against the value models -/

namespace JaxAct.Mem
variable {α β γ δ ε : Type}

/-- All objects of the first heap are in the second, unmodified. -/
def Ext (h h' : Heap α) : Prop := ∀ (i : Nat) (c : Cell α), h[i]? = some c → h'[i]? = some c

theorem Ext.refl (h : Heap α) : Ext h h := fun _ _ hi => hi

theorem Ext.trans {h h' h'' : Heap α} (a : Ext h h') (b : Ext h' h'') : Ext h h'' :=
  fun i c hi => b i c (a i c hi)

theorem lt_of_some {h : Heap α} {i : Nat} {c : Cell α} (hi : h[i]? = some c) : i < h.length := by
  obtain ⟨hi', _⟩ := List.getElem?_eq_some_iff.1 hi; exact hi'

theorem Ext.append (h : Heap α) (c : List (Cell α)) : Ext h (h ++ c) :=
  fun i x hi => by rw [List.getElem?_append_left (lt_of_some hi)]; exact hi

theorem Ext.set {h h' : Heap α} (a : Ext h h') {r : Ref} (hr : h.length ≤ r) (c : Cell α) :
    Ext h (h'.set r c) := fun i x hi => by
  have := lt_of_some hi
  rw [List.getElem?_set_ne (by omega)]; exact a i x hi

theorem Safe.ext {m : M α β} {P : β → Prop} {h : Heap α} (hm : Safe h.length m P) :
    Ext h (m.exec h).2 := fun i c hi => by
  rw [(hm.all h le_rfl).1 i (lt_of_some hi)]; exact hi

theorem viewTree_ext {h h' : Heap α} (e : Ext h h') {v : Val} {t : PyTree (Leaf α)}
    (hv : viewTree h v = some t) : viewTree h' v = some t := by
  cases v with
  | none => exact hv
  | some r =>
    simp only [viewTree] at hv ⊢
    split at hv
    · next t' ht => rw [e r _ ht]; exact hv
    · cases hv

theorem viewEntries_cons {h : Heap α} {k : String} {v : Val} {d : Dict Val}
    {D : Dict (PyTree (Leaf α))} : viewEntries h ((k, v) :: d) = some D ↔
      ∃ t E, viewTree h v = some t ∧ viewEntries h d = some E ∧ D = (k, t) :: E := by
  simp only [viewEntries]
  constructor
  · intro hh
    split at hh
    · next t E h1 h2 => cases hh; exact ⟨t, E, h1, h2, rfl⟩
    · cases hh
  · rintro ⟨t, E, h1, h2, rfl⟩
    rw [h1, h2]

theorem viewEntries_congr {h h' : Heap α}
    (e : ∀ v t, viewTree h v = some t → viewTree h' v = some t) :
    ∀ {d : Dict Val} {D : Dict (PyTree (Leaf α))}, viewEntries h d = some D →
      viewEntries h' d = some D
  | [], _, hd => hd
  | (k, v) :: d, D, hd => by
    obtain ⟨t, E, h1, h2, rfl⟩ := viewEntries_cons.1 hd
    exact viewEntries_cons.2 ⟨t, E, e v t h1, viewEntries_congr e h2, rfl⟩

theorem viewEntries_ext {h h' : Heap α} (e : Ext h h') {d : Dict Val}
    {D : Dict (PyTree (Leaf α))} (hd : viewEntries h d = some D) : viewEntries h' d = some D :=
  viewEntries_congr (fun _ _ => viewTree_ext e) hd

theorem viewDict_some {h : Heap α} {r : Ref} {D : Dict (PyTree (Leaf α))} :
    viewDict h r = some D ↔ ∃ d, h[r]? = some (.dict d) ∧ viewEntries h d = some D := by
  unfold viewDict
  constructor
  · intro hh
    split at hh
    · next d hd => exact ⟨d, hd, hh⟩
    · cases hh
  · rintro ⟨d, h1, h2⟩; rw [h1]; exact h2

theorem viewDict_ext {h h' : Heap α} (e : Ext h h') {r : Ref} {D : Dict (PyTree (Leaf α))}
    (hd : viewDict h r = some D) : viewDict h' r = some D := by
  obtain ⟨d, h1, h2⟩ := viewDict_some.1 hd
  exact viewDict_some.2 ⟨d, e _ _ h1, viewEntries_ext e h2⟩

/-- The value of a state object given its dictionaries. -/
def StateObj.value (s : StateObj α) (d a u : Dict (PyTree (Leaf α))) : ACTStates α :=
  { epsilon := s.epsilon
    iterations := s.iterations
    residuals := s.residuals
    probabilities := s.probabilities
    defaults := d
    accumulators := a
    updates := u
    depression_constant := s.depression_constant
    error_mode := s.error_mode }

theorem viewState_some {h : Heap α} {r : Ref} {S : ACTStates α} :
    viewState h r = some S ↔ ∃ s d a u, h[r]? = some (.state s) ∧ viewDict h s.defaults = some d ∧
      viewDict h s.accumulators = some a ∧ viewDict h s.updates = some u ∧ S = s.value d a u := by
  unfold viewState
  constructor
  · intro hh
    split at hh
    · next s hs =>
      split at hh
      · next d a u h1 h2 h3 => cases hh; exact ⟨s, d, a, u, hs, h1, h2, h3, rfl⟩
      · cases hh
    · cases hh
  · rintro ⟨s, d, a, u, h0, h1, h2, h3, rfl⟩
    rw [h0]; simp only [h1, h2, h3]; rfl

theorem viewState_ext {h h' : Heap α} (e : Ext h h') {r : Ref} {S : ACTStates α}
    (hS : viewState h r = some S) : viewState h' r = some S := by
  obtain ⟨s, d, a, u, h0, h1, h2, h3, rfl⟩ := viewState_some.1 hS
  exact viewState_some.2 ⟨s, d, a, u, e _ _ h0, viewDict_ext e h1, viewDict_ext e h2,
    viewDict_ext e h3, rfl⟩

theorem view_some {h : Heap α} {r : Ref} {c : Cls} {S : ACTStates α} :
    view h r = some (c, S) ↔ ∃ st, h[r]? = some (.obj c (some st)) ∧ viewState h st = some S := by
  unfold view
  constructor
  · intro hh
    split at hh
    · next c' st hs =>
      cases hv : viewState h st with
      | none => rw [hv] at hh; cases hh
      | some S' => rw [hv] at hh; cases hh; exact ⟨st, hs, hv⟩
    · cases hh
  · rintro ⟨st, h1, h2⟩; rw [h1]; simp only [h2]; rfl

theorem view_ext {h h' : Heap α} (e : Ext h h') {r : Ref} {x : Cls × ACTStates α}
    (hx : view h r = some x) : view h' r = some x := by
  obtain ⟨c, S⟩ := x
  obtain ⟨st, h1, h2⟩ := view_some.1 hx
  exact view_some.2 ⟨st, e _ _ h1, viewState_ext e h2⟩

/-! ### Dictionary operations and views -/

theorem viewEntries_get? {h : Heap α} : ∀ {d : Dict Val} {D : Dict (PyTree (Leaf α))},
    viewEntries h d = some D → ∀ k,
      (∃ v t, d.get? k = some v ∧ D.get? k = some t ∧ viewTree h v = some t) ∨
      (d.get? k = none ∧ D.get? k = none)
  | [], D, hd, k => by cases hd; exact Or.inr ⟨rfl, rfl⟩
  | (k', v) :: d, D, hd, k => by
    obtain ⟨t, E, h1, h2, rfl⟩ := viewEntries_cons.1 hd
    simp only [Dict.get?]
    split
    · exact Or.inl ⟨v, t, rfl, rfl, h1⟩
    · exact viewEntries_get? h2 k

theorem viewEntries_keys {h : Heap α} : ∀ {d : Dict Val} {D : Dict (PyTree (Leaf α))},
    viewEntries h d = some D → d.keys = D.keys
  | [], D, hd => by cases hd; rfl
  | (k', v) :: d, D, hd => by
    obtain ⟨t, E, h1, h2, rfl⟩ := viewEntries_cons.1 hd
    show k' :: Dict.keys d = k' :: Dict.keys E
    rw [viewEntries_keys h2]

theorem viewEntries_mem {h : Heap α} {d : Dict Val} {D : Dict (PyTree (Leaf α))}
    (hd : viewEntries h d = some D) (k : String) : d.mem k = D.mem k := by
  unfold Dict.mem
  rcases viewEntries_get? hd k with ⟨v, t, h1, h2, -⟩ | ⟨h1, h2⟩ <;> rw [h1, h2] <;> rfl

theorem viewEntries_set {h : Heap α} {k : String} {v : Val} {t : PyTree (Leaf α)}
    (hv : viewTree h v = some t) : ∀ {d : Dict Val} {D : Dict (PyTree (Leaf α))},
    viewEntries h d = some D → viewEntries h (d.set k v) = some (D.set k t)
  | [], D, hd => by
    cases hd
    exact viewEntries_cons.2 ⟨t, [], hv, rfl, rfl⟩
  | (k', v') :: d, D, hd => by
    obtain ⟨t', E, h1, h2, rfl⟩ := viewEntries_cons.1 hd
    simp only [Dict.set]
    split
    · exact viewEntries_cons.2 ⟨t, E, hv, h2, rfl⟩
    · exact viewEntries_cons.2 ⟨t', _, h1, viewEntries_set hv h2, rfl⟩

theorem viewEntries_erase {h : Heap α} {k : String} :
    ∀ {d : Dict Val} {D : Dict (PyTree (Leaf α))},
    viewEntries h d = some D → viewEntries h (d.erase k) = some (D.erase k)
  | [], D, hd => by cases hd; rfl
  | (k', v') :: d, D, hd => by
    obtain ⟨t', E, h1, h2, rfl⟩ := viewEntries_cons.1 hd
    simp only [Dict.erase]
    split
    · exact h2
    · exact viewEntries_cons.2 ⟨t', _, h1, viewEntries_erase h2, rfl⟩

/-- Modifying a dictionary does not modify a pytree. -/
theorem viewTree_set {h : Heap α} {r : Ref} {d d' : Dict Val} (hr : h[r]? = some (.dict d))
    {v : Val} {t : PyTree (Leaf α)} (hv : viewTree h v = some t) :
    viewTree (h.set r (.dict d')) v = some t := by
  cases v with
  | none => exact hv
  | some i =>
    simp only [viewTree] at hv ⊢
    split at hv
    · next t' ht =>
      have hne : r ≠ i := by rintro rfl; rw [ht] at hr; cases hr
      rw [List.getElem?_set_ne hne, ht]; exact hv
    · cases hv

/-! ### Simulation -/

/-- The heap computation from `h` ends like the value computation, with results related by `R`. -/
def Sim (h : Heap α) (m : M α β) (p : Res γ) (R : Heap α → β → γ → Prop) : Prop :=
  match (m.exec h).1, p with
  | .ok v, .ok w => R (m.exec h).2 v w
  | .error e, .error e' => e = e'
  | _, _ => False

namespace Sim

theorem bind {h : Heap α} {m : M α β} {p : Res γ} {R : Heap α → β → γ → Prop}
    {f : β → M α δ} {g : γ → Res ε} {S : Heap α → δ → ε → Prop} (hm : Sim h m p R)
    (hf : ∀ h' v w, R h' v w → Sim h' (f v) (g w) S) : Sim h (m >>= f) (p >>= g) S := by
  unfold Sim at hm ⊢
  rw [exec_bind]
  cases hr : m.exec h with
  | mk r h' =>
    rw [hr] at hm
    cases r with
    | error e =>
      cases p with
      | error e' => exact hm
      | ok w => exact hm.elim
    | ok v =>
      cases p with
      | error e' => exact hm.elim
      | ok w => exact hf h' v w hm

/-- The same when the value computation has ended. -/
theorem bindR {h : Heap α} {m : M α β} {p : Res γ} {R : Heap α → β → γ → Prop}
    {f : β → M α δ} {S : Heap α → δ → γ → Prop} (hm : Sim h m p R)
    (hf : ∀ h' v w, R h' v w → Sim h' (f v) (.ok w) S) : Sim h (m >>= f) p S := by
  have : p = p >>= fun w => .ok w := by cases p <;> rfl
  rw [this]
  exact bind hm hf

/-- A step of the heap computation only, with known result. -/
theorem step {h h' : Heap α} {m : M α β} {v : β} {f : β → M α δ} {p : Res ε}
    {S : Heap α → δ → ε → Prop} (hm : m.exec h = (.ok v, h')) (hf : Sim h' (f v) p S) :
    Sim h (m >>= f) p S := by
  unfold Sim at hf ⊢
  rw [exec_bind, hm]
  exact hf

/-- A pure computation on both sides. -/
theorem pureRes (h : Heap α) (r : Res β) :
    Sim h (Mem.pureRes r : M α β) r (fun h' v w => h' = h ∧ v = w) := by
  cases r with
  | ok v => exact ⟨rfl, rfl⟩
  | error e =>
    show e = e
    rfl

theorem raise {h : Heap α} (e : Err) {R : Heap α → β → γ → Prop} :
    Sim h (Mem.pureRes (JaxAct.raise e) : M α β) (JaxAct.raise e : Res γ) R := by
  show e = e
  rfl

theorem mono {h : Heap α} {m : M α β} {p : Res γ} {R S : Heap α → β → γ → Prop} (hm : Sim h m p R)
    (hRS : ∀ v w, R (m.exec h).2 v w → S (m.exec h).2 v w) : Sim h m p S := by
  unfold Sim at hm ⊢
  cases h1 : (m.exec h).1 <;> cases p <;> rw [h1] at hm
  · exact hm
  · exact hm.elim
  · exact hm.elim
  · exact hRS _ _ hm

theorem ite {h : Heap α} {P : Prop} [Decidable P] {m m' : M α β} {p p' : Res γ}
    {R : Heap α → β → γ → Prop} (h1 : P → Sim h m p R) (h2 : ¬ P → Sim h m' p' R) :
    Sim h (if P then m else m') (if P then p else p') R := by
  split
  · next hp => exact h1 hp
  · next hp => exact h2 hp

theorem tryRuntime {h : Heap α} {m : M α β} {p : Res γ} {R : Heap α → β → γ → Prop}
    (hm : Sim h m p R) : Sim h (Mem.tryRuntime m) (wrapRuntime p) R := by
  unfold Sim M.exec at hm ⊢
  unfold Mem.tryRuntime wrapRuntime
  cases hr : m h with
  | mk r h' =>
    rw [hr] at hm
    cases r <;> cases p <;> first | exact hm.elim | exact hm | rfl

end Sim

/-! ### Known steps -/

section Steps
variable {h : Heap α}

theorem exec_alloc (c : Cell α) : (alloc c).exec h = (.ok h.length, h ++ [c]) := rfl

theorem exec_readDict {r : Ref} {d : Dict Val} (hr : h[r]? = some (.dict d)) :
    (readDict r : M α _).exec h = (.ok d, h) := by
  simp only [M.exec, readDict, hr]

theorem exec_readState {r : Ref} {s : StateObj α} (hr : h[r]? = some (.state s)) :
    (readState r : M α _).exec h = (.ok s, h) := by
  simp only [M.exec, readState, hr]

theorem exec_getState {r st : Ref} {c : Cls} (hr : h[r]? = some (.obj c (some st))) :
    (getState r : M α _).exec h = (.ok st, h) := by
  simp only [M.exec, getState, hr]

theorem exec_getErrorMode {r : Ref} {m : String} {o : Option Ref}
    (hr : h[r]? = some (.obj (.editor m) o)) :
    (getErrorMode r : M α _).exec h = (.ok m, h) := by
  simp only [M.exec, getErrorMode, hr]

theorem exec_readTree {v : Val} {t : PyTree (Leaf α)} (hv : viewTree h v = some t) :
    (readTree v : M α _).exec h = (.ok t, h) := by
  cases v with
  | none => cases hv; rfl
  | some r =>
    simp only [viewTree] at hv
    split at hv
    · next t' ht => cases hv; simp only [M.exec, readTree, ht]
    · cases hv

theorem exec_setItem {r : Ref} {d : Dict Val} (hr : h[r]? = some (.dict d)) (k : String) (v : Val) :
    (setItem r k v : M α _).exec h = (.ok (), h.set r (.dict (d.set k v))) := by
  simp only [M.exec, setItem, hr]

theorem exec_copyDict {r : Ref} {d : Dict Val} (hr : h[r]? = some (.dict d)) :
    (copyDict r : M α _).exec h = (.ok h.length, h ++ [.dict d]) := by
  unfold copyDict
  rw [exec_bind, exec_readDict hr]
  rfl

theorem exec_getItem {r : Ref} {d : Dict Val} (hr : h[r]? = some (.dict d)) (k : String) :
    (getItem r k : M α _).exec h = (d.getItem k, h) := by
  unfold getItem
  rw [exec_bind, exec_readDict hr]
  rfl

theorem exec_newObj (c : Cls) (s : Ref) :
    (newObj c s : M α _).exec h = (.ok h.length, h ++ [.obj c (some s)]) := by
  unfold newObj
  rw [exec_bind, exec_alloc]
  simp only
  have : (h ++ [Cell.obj c none])[h.length]? = some (Cell.obj (α := α) c none) := by
    rw [List.getElem?_append_right le_rfl]; simp
  have e : (setState h.length s : M α _).exec (h ++ [.obj c none]) =
      (.ok (), h ++ [.obj c (some s)]) := by
    simp only [M.exec, setState, this]
    rw [List.set_append_right _ _ le_rfl]
    simp
  rw [exec_bind, e]
  rfl

theorem get_last (c : Cell α) : (h ++ [c])[h.length]? = some c := by
  rw [List.getElem?_append_right le_rfl]; simp

end Steps
end JaxAct.Mem
